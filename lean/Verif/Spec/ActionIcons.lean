import Verif.Model.ActionIcons
/-! What the icons of an action say, in terms of its code. -/

namespace PySwitch.Spec.ActionIcons
open PySwitch.Properties (Text lit Param)
open PySwitch.ActionIcons

/-- The argument with this name has this code. -/
def Has (c : Call) (name code : Text) : Prop := (some name, code) ∈ c.args

/-- Python accepts the call: no name is used twice. -/
def Legal (c : Call) : Prop := (c.args.filterMap (·.1)).Nodup

/-- The argument has a value. -/
def Set (c : Call) (name : Text) : Prop := ∃ code, Has c name code ∧ code ≠ [] ∧ code ≠ lit "None"

/-- The value of a parameter, given by its name: the argument, or the default. -/
def Value (c : Call) (p : Param) (code : Text) : Prop :=
  Has c p.name code ∨ (∀ t, ¬ Has c p.name t) ∧ p.default = some code

/-- The action is on a page of a pager: it is enabled by a function of the pager, and the page is its id. -/
def OnPage (c : Call) (pager page : Text) : Prop :=
  pager ≠ [] ∧ page ≠ [] ∧ page ≠ lit "None" ∧ Has c (lit "id") page ∧
    ∃ function, '.' ∉ pager ∧ '.' ∉ function ∧ Has c (lit "enable_callback") (pager ++ ['.'] ++ function)

end PySwitch.Spec.ActionIcons
