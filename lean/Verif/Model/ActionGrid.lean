/-!
Model of the layout of the lists of actions in the editor (`web/htdocs/js/ui/parser/ParserFrontendInput.js`, the `layout` function which is
given to the grid library).

Simplified: lengths are whole numbers (of any unit). Dragging and the animation are done by the library.
-/

namespace PySwitch.ActionGrid

/-- The size and margins of an item as told by the grid library. (`ParserFrontendInput.js:273-280`.) -/
structure Item where
  width : Int
  height : Int
  top : Int := 0
  right : Int := 0
  bottom : Int := 0
  left : Int := 0
deriving Repr, DecidableEq

/-- The variables `y`, `w`, `h` and `layout.slots`. (`ParserFrontendInput.js:259-268`.) -/
structure Acc where
  y : Int := 0
  w : Int := 0
  h : Int := 0
  slots : List Int := []
deriving Repr, DecidableEq

/-- The layout which is passed to the library: `styles.width` and `styles.height` are `width` and `height`.
(`ParserFrontendInput.js:286-291`.) -/
structure Layout where
  slots : List Int
  width : Int
  height : Int
deriving Repr, DecidableEq

/-- One turn of the loop. (`ParserFrontendInput.js:270-283`.) -/
def place (a : Acc) (i : Item) : Acc :=
  let y := a.y + a.h
  let itemWidth := i.width + i.left + i.right
  { y := y
    w := if itemWidth > a.w then itemWidth else a.w
    h := i.height + i.top + i.bottom
    slots := a.slots ++ [0, y] }

/-- `ParserFrontendInput.js:258-292` `layout`. -/
def layout (items : List Item) : Layout :=
  let a := items.foldl place {}
  { slots := a.slots, width := a.w, height := a.h + a.y }

end PySwitch.ActionGrid
