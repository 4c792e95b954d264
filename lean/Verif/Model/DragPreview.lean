import Verif.Model.DisplayEditor
/-!
Model of dragging and resizing elements in the preview of the display editor
(`web/htdocs/js/ui/editors/display/DisplayNodePreviewDrag.js`, `DisplayNode.js`).

Left out: the library which turns movements of the pointer into events (with its snapping and restrictions), selection and order (see
`Model/DisplayEditor.lean`). Numbers are exact.
-/

namespace PySwitch.DragPreview
open PySwitch.DisplayEditor (Bounds setModelBounds)

/-- The `move` events of the library: `event.dx` and `event.dy` when dragging, `event.rect` when resizing, in pixels of the screen.
(`DisplayNodePreviewDrag.js:40-47, 85-92`.) -/
inductive Event where
  | move (dx dy : Rat)
  | size (width height : Rat)

/-- `DisplayNodePreviewDrag.js:40-47, 85-92`. -/
def step (scale : Rat) (b : Bounds) : Event → Bounds
  | .move dx dy => setModelBounds (b.x + dx / scale) (b.y + dy / scale) b.w b.h
  | .size w h => setModelBounds b.x b.y (w / scale) (h / scale)

/-- A history. (No code of its own: a history of `step`.) -/
def run (scale : Rat) (b : Bounds) (es : List Event) : Bounds := es.foldl (step scale) b

end PySwitch.DragPreview
