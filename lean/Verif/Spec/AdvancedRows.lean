import Verif.Model.AdvancedRows
/-!
Specification for the advanced parameters of an action (C208).
-/
namespace PySwitch.Spec.AdvancedRows
open PySwitch.AdvancedRows

/-- A parameter which is hidden first: it has a level, and there is no message for it. -/
def Advanced (p : Param) : Prop := p.level ≠ 0 ∧ p.messages = false

instance (p : Param) : Decidable (Advanced p) := inferInstanceAs (Decidable (_ ∧ _))

/-- How often the button was clicked. -/
def clicks (ops : List Op) : Nat := ops.count .click

/-- Whether a parameter must be shown: it is not advanced, or its level was reached, or it got a value. -/
def Shown (ops : List Op) (p : Param) : Prop := ¬ Advanced p ∨ p.level ≤ clicks ops ∨ .value p.name ∈ ops

instance (ops : List Op) (p : Param) : Decidable (Shown ops p) := inferInstanceAs (Decidable (_ ∨ _ ∨ _))

end PySwitch.Spec.AdvancedRows
