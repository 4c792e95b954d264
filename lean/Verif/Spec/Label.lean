import Verif.Model.Label
/-
What a label should show: the text set last, its background color, and a text color which is either chosen or has enough
contrast.
-/
namespace PySwitch.Label

/-- The wishes of the user: text, background color, and the text color chosen (`none`: automatic). -/
structure Wish where
  text : String
  chosen : Option Color
  back : Option Color
deriving Repr, DecidableEq

/-- A background can be changed, but not removed or added. Changing the background falls back to the text color given when
the label was created. With low memory, the texts are replaced. -/
def Wish.step (initial : Option Color) (w : Wish) : LabelEvent → Wish
  | .init low => if low then { w with text := "Low Memory!" } else w
  | .text t low => { w with text := if low then "Low Memory!" else t }
  | .textColor c => { w with chosen := c }
  | .backColor c =>
    match w.back, c with
    | some b, some c => if b = c then w else { w with back := some c, chosen := initial }
    | _, _ => w

/-- The text color for a wish. -/
def Wish.color (w : Wish) : Color :=
  match w.chosen with
  | some c => c
  | none => contrastColor w.back

/-- The wishes after some calls. -/
def wishes (text : String) (textColor backColor : Option Color) (es : List LabelEvent) : Wish :=
  es.foldl (Wish.step textColor) ⟨text, textColor, backColor⟩

/-- What the wishes look like. -/
def Wish.drawn (wrap : Option (String → String)) (w : Wish) : Drawn := ⟨wrapText wrap w.text, some w.color, w.back⟩

end PySwitch.Label
