import Verif.Model.PageColour
import Verif.Spec.Colours
/-! The colours of the pages in the configuration. -/

namespace PySwitch.Spec.PageColour
open PySwitch.Properties (Text lit)
open PySwitch.PageColour
open PySwitch.Colours.Spec (Colour named)

/-- The variable is a pager with these pages, which is assigned to an input. -/
def IsPager (inputs : List (Option Input)) (var : Text) (pages : List Page) : Prop :=
  ∃ i, some i ∈ inputs ∧ (⟨lit "PagerAction", some var, some pages⟩ : Act) ∈ i.actions ++ i.hold

/-- All uses of a variable are the same action. -/
def OneValue (inputs : List (Option Input)) (var : Text) : Prop :=
  ∀ i j, some i ∈ inputs → some j ∈ inputs → ∀ a ∈ i.actions ++ i.hold, ∀ b ∈ j.actions ++ j.hold,
    a.assign = some var → b.assign = some var → a = b

/-- The code of a colour: a name of the firmware, or a tuple. -/
def Means (code : Text) (c : Colour) : Prop :=
  (∃ name, (name, c) ∈ named ∧ code = lit ("Colors." ++ name)) ∨ ∃ p q r, code = c.tuple p q r

/-- The colour in CSS: the function `rgb` with the three numbers, with any blanks around them. -/
def InCss (css : Text) (c : Colour) : Prop := ∃ p q r, css = lit "rgb" ++ c.tuple p q r

end PySwitch.Spec.PageColour
