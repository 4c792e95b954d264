import Verif.Model.Layout
/-
Labels and the indicator dot: `ui/elements.py` (`DisplayLabel`, `BidirectionalProtocolState`).
-/
namespace PySwitch.Label
open PySwitch PySwitch.Layout

/-- `colors.py:4, 23`. -/
def white : Color := ⟨255, 255, 255⟩
/-- `content/lib/pyswitch/colors.py:23`. -/
def black : Color := ⟨0, 0, 0⟩

/-- `elements.py:222`: the luminance of a color. -/
def luminance (c : Color) : Rat := c.r * (2126 / 10000) + c.g * (7151 / 10000) + c.b * (721 / 10000)

/-- `elements.py:218-227` `__determine_text_color`. -/
def contrastColor (back : Option Color) : Color :=
  match back with
  | none => white
  | some c => if luminance c < 140 then white else black

/-- What is on the display for a label: text and text color of the label object (elements.py:112-123), and the fill color of
the background if there is one (95-103). -/
structure Drawn where
  text : String
  color : Option Color
  back : Option Color
deriving Repr, DecidableEq

/-- The state of a label, `elements.py:51-66`: the layout (`text`, `textColor`, `backColor`), the initial text color, and what
is drawn (`none` before `init`). Colors are single colors; the layout options not used here are left out. -/
structure LabelState where
  text : String
  textColor : Option Color
  backColor : Option Color
  initialTextColor : Option Color
  drawn : Option Drawn := none
deriving Repr, DecidableEq

/-- `elements.py:51-66` `__init__`. -/
def LabelState.create (text : String) (textColor backColor : Option Color) : LabelState :=
  ⟨text, textColor, backColor, textColor, none⟩

/-- The calls. `lowMemory` is the flag of the application at that time. (`elements.py:68-198`.) -/
inductive LabelEvent where
  | init (lowMemory : Bool)
  | text (t : String) (lowMemory : Bool)
  | textColor (c : Option Color)
  | backColor (c : Option Color)
deriving Repr, DecidableEq

/-- `elements.py:201-214` `__wrap_text`: `wrap` is `wrap_text_to_pixels` (depends on the font), `none` if no width is set. -/
def wrapText (wrap : Option (String → String)) (t : String) : String :=
  if t = "" then ""
  else match wrap with
    | some f => f t
    | none => t

/-- `elements.py:167-170`: the color passed, or one fitting to the background. -/
def chosenColor (c back : Option Color) : Color :=
  match c with
  | some x => x
  | none => contrastColor back

/-- `elements.py:166-178` the setter of `text_color`. -/
def LabelState.setTextColor (st : LabelState) (c : Option Color) : LabelState :=
  let tc := chosenColor c st.backColor
  if st.textColor = some tc then st
  else { st with textColor := some tc, drawn := st.drawn.map (fun (d : Drawn) => { d with color := some tc }) }

/-- `elements.py:184-198` the setter of `text`. -/
def LabelState.setText (wrap : Option (String → String)) (st : LabelState) (t : String) (lowMemory : Bool) : LabelState :=
  let t := if lowMemory then "Low Memory!" else t
  if st.text = t then st
  else { st with text := t, drawn := st.drawn.map (fun (d : Drawn) => { d with text := wrapText wrap t }) }

/-- `elements.py:143-160` the setter of `back_color`: `none` for the exceptions. -/
def LabelState.setBackColor (st : LabelState) (c : Option Color) : Option LabelState :=
  if st.backColor.isSome ∧ c.isNone then none
  else if st.backColor.isNone ∧ c.isSome then none
  else if st.backColor = c then some st
  else
    let st := { st with backColor := c }
    let st := { st with drawn := st.drawn.map (fun (d : Drawn) => { d with back := c }) }
    some (st.setTextColor st.initialTextColor)

/-- `elements.py:75-133` `init`. The background is created first (its fill color is not changed before the label is
created), then text color and text are set, then the label object is created with them. -/
def LabelState.init (wrap : Option (String → String)) (st : LabelState) (lowMemory : Bool) : LabelState :=
  let st := st.setTextColor st.textColor
  let st := st.setText wrap st.text lowMemory
  { st with drawn := some ⟨wrapText wrap st.text, st.textColor, st.backColor⟩ }

/-- One call. An exception leaves the state as it is. (`elements.py:68-198`.) -/
def LabelState.step (wrap : Option (String → String)) (st : LabelState) : LabelEvent → LabelState
  | .init low => st.init wrap low
  | .text t low => st.setText wrap t low
  | .textColor c => st.setTextColor c
  | .backColor c => (st.setBackColor c).getD st

/-- A history. (No code of its own: a history of `LabelState.step`.) -/
def LabelState.run (wrap : Option (String → String)) (st : LabelState) (es : List LabelEvent) : LabelState :=
  es.foldl (LabelState.step wrap) st

/-- `elements.py:96-102`: the area of the background. -/
def background (b : Bounds) (stroke : Int) : Bounds :=
  ⟨b.x + stroke, b.y + stroke, b.width - stroke * 2, b.height - stroke * 2⟩

/-! ### Indicator dot -/

/-- `elements.py:462-473`, 484-494: the area of the dot, for the area passed to the constructor. -/
def dotBounds (b : Bounds) : Bounds :=
  let own : Bounds := ⟨b.x + b.width - 4 - 2, b.y + 2, 4, 4⟩
  let r := if own.width > own.height then pyInt ((own.width : Rat) / 2) else pyInt ((own.height : Rat) / 2)
  ⟨own.x, own.y, 2 * r, 2 * r⟩

/-- The dot, `elements.py:475, 488-494`: `__current_color` and the fill color. -/
structure Dot where
  current : Option Color := none
  fill : Color := black
deriving Repr, DecidableEq

/-- `elements.py:497-507` `update`, for a bidirectional client; `c` is the color of the protocol state. The second component
tells if the display has been written. -/
def Dot.update (d : Dot) (c : Color) : Dot × Bool :=
  if d.current = some c then (d, false) else (⟨some c, c⟩, true)

end PySwitch.Label
