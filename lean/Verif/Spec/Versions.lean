import Verif.Model.Versions
/-! Specification for the publication of versions. -/

namespace PySwitch.Spec.Versions
open PySwitch.Versions

/-- A part of a text. -/
def Contains (part text : Text) : Prop := ∃ a b, text = a ++ part ++ b

/-- Where the files of a version are. -/
def root (name : Text) : Text := '/' :: name ++ "/PySwitch/web/htdocs/".toList

/-- A text which a pattern stands for: the same one, or another one which differs from it where it has dots. -/
def Like (pattern text : Text) : Prop :=
  pattern.length = text.length ∧ ∀ (k : Nat) (p c : Char), pattern[k]? = some p → text[k]? = some c → p = '.' ∨ p = c

/-- The request is meant for something else than the latest version: it has `/versions` in it, or the path of a version. -/
def Special (versions : List Version) (uri : Text) : Prop :=
  Contains "/versions".toList uri ∨ ∃ v ∈ versions, ∃ part, Like (v.name ++ "/PySwitch/web/htdocs/".toList) part ∧ Contains part uri

end PySwitch.Spec.Versions
