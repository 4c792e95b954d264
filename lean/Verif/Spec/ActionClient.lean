import Verif.Model.ActionClient
/-! Specification for finding the definitions of actions. -/

namespace PySwitch.Spec.ActionClient
open PySwitch.ActionClient

/-- A part of a text. -/
def Contains (part text : Text) : Prop := ∃ a b, text = a ++ part ++ b

/-- The statement makes the name available: by itself or as an alias. -/
def Binds (i : Import) (name : Text) : Prop :=
  ∃ names, i.names = some names ∧ ∃ a ∈ names, a.asname = some name ∨ (a.asname = none ∧ a.name = some name)

end PySwitch.Spec.ActionClient
