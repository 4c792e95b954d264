import Verif.Model.Links

/-! What it means that choosing an entry opens it. -/

namespace PySwitch.Spec.Links

open PySwitch.Links

/-- An entry of one of the lists the user can choose from. -/
inductive Entry where
  | preset (id : Text)
  | controller (port : Text)
  | example (path : Text)
  | template (path : Text)
deriving DecidableEq, Repr

/-- The location the page goes to when the entry is chosen. -/
def chosen (pathname : Text) : Entry → Text
  | .preset id => choosePreset pathname id
  | .controller port => chooseController pathname port
  | .example path => chooseExample pathname ('/' :: path)
  | .template path => chooseTemplate pathname ('/' :: path)

/-- What has to be opened for it. -/
def wanted : Entry → Outcome
  | .preset id => .opened (.preset id)
  | .controller port => .opened (.controller port)
  | .example path => .opened (.example path)
  | .template path => .opened (.template path)

/-- The name of an entry. -/
def name : Entry → Text
  | .preset id => id
  | .controller port => port
  | .example path => path
  | .template path => path

/-- None of the characters in `bad` is in the text. -/
def Without (bad : Text) (s : Text) : Prop := ∀ c ∈ bad, c ∉ s

end PySwitch.Spec.Links
