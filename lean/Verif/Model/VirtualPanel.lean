import Verif.Model.Properties
/-!
Model of the controls of the emulated Kemper device: the checkboxes of effect slots, fixed effects, tuner and rig button morphing, and the input for the tuner note
(`web/htdocs/clients/kemper/virtual/VirtualKemperClientUI.js:31-96, 186-198, 282-425`, `VirtualKemperParameter.js:203-223`).

Simplified: each control with its parameter on its own. Callbacks run before the next event. Messages carry numbers from 0 on.
-/
namespace PySwitch.VirtualPanel
open PySwitch.Properties (Text parseInt)

/-- The kinds of checkboxes which show a parameter. (`VirtualKemperClientUI.js:35-85, 285-310, 364-376`.) -/
inductive Kind where
  | slot
  | fixed
  | tuner
deriving DecidableEq, Repr

/-- A checkbox and the value of its parameter. (`VirtualKemperClientUI.js:39, 292, 368`.) -/
structure Box where
  value : Nat
  checked : Bool
deriving DecidableEq, Repr

/-- What the checkbox shows when it is created. (`VirtualKemperClientUI.js:58, 293, 369`.) -/
def Kind.initial : Kind → Nat → Bool
  | .slot, v => v != 0
  | .fixed, v => v == 1
  | .tuner, v => v == 1

/-- The callbacks for changes of the parameter. (`VirtualKemperClientUI.js:42-44, 303-305, 412-414`.) -/
def Kind.callback : Kind → Nat → Bool
  | .slot, v => v != 0
  | .fixed, v => v != 0
  | .tuner, v => v == 1

/-- The value a click sets. (`VirtualKemperClientUI.js:61, 296, 372`.) -/
def Kind.value : Kind → Bool → Nat
  | .slot, c => if c then 1 else 0
  | .fixed, c => if c then 1 else 0
  | .tuner, c => if c then 1 else 3

/-- `VirtualKemperClientUI.js:57-58, 292-293, 368-369`. -/
def Box.init (k : Kind) (value : Nat) : Box := ⟨value, k.initial value⟩

/-- `VirtualKemperParameter.js:203-217` `setValue`: the callback is only called for another value. -/
def Box.setValue (k : Kind) (b : Box) (v : Nat) : Box := if b.value == v then b else ⟨v, k.callback v⟩

/-- A message sets the parameter, or the checkbox is clicked. (`VirtualKemperParameter.js:118-198`, `VirtualKemperClientUI.js:59-66, 294-300, 370-376`.) -/
inductive BoxEvent where
  | message (v : Nat)
  | click

/-- `VirtualKemperClientUI.js:59-66, 294-300, 370-376`: the browser toggles the checkbox before the handler is called. -/
def Box.step (k : Kind) (b : Box) : BoxEvent → Box
  | .message v => b.setValue k v
  | .click => Box.setValue k ⟨b.value, !b.checked⟩ (k.value (!b.checked))

/-- `VirtualKemperClientUI.js:342-345`: the first row. -/
def names : List Text := [['C'], ['D', 'b'], ['D'], ['E', 'b'], ['E'], ['F'], ['G', 'b'], ['G'], ['A', 'b'], ['A'], ['B', 'b'], ['B']]

/-- `VirtualKemperClientUI.js:342-345`: the second row. -/
def others : List Text := [['C'], ['C', '#'], ['D'], ['D', '#'], ['F', 'b'], ['E', '#'], ['F', '#'], ['G'], ['G', '#'], ['A'], ['A', '#'], ['H']]

/-- `n.indexOf(text)`. (`VirtualKemperClientUI.js:353`.) -/
def indexOf (text : Text) (row : List Text) : Option Nat := row.findIdx? (· == text)

/-- `text.toUpperCase()`, for ASCII letters. (`VirtualKemperClientUI.js:350`.) -/
def upper (text : Text) : Text := text.map Char.toUpper

/-- `VirtualKemperClientUI.js:350-358`. -/
def findNote (text : Text) : Nat :=
  match indexOf (upper text) names with
  | some i => i
  | none => match indexOf (upper text) others with
    | some i => i
    | none => 0

/-- `VirtualKemperClientUI.js:347-359` `detectNote`. -/
def detectNote (text : Text) : Int :=
  match parseInt text with
  | some n => if n != 0 then n else findNote text
  | none => findNote text

/-- `notes[0][value % 12]`; `none` is `undefined`, for negative numbers. (`VirtualKemperClientUI.js:383, 418`.) -/
def nameOf (value : Int) : Option Text := if value.tmod 12 < 0 then none else names[(value.tmod 12).toNat]?

/-- The input for the note, with the value of its parameter. (`VirtualKemperClientUI.js:382-392`.) -/
structure Note where
  value : Int
  text : Option Text

/-- `VirtualKemperClientUI.js:382-383`: at the beginning, the input shows the parameter of the tuner mode. -/
def Note.init (note tunerMode : Int) : Note := ⟨note, nameOf tunerMode⟩

/-- `VirtualKemperParameter.js:203-217`, `VirtualKemperClientUI.js:417-419`. -/
def Note.setValue (s : Note) (v : Int) : Note := if s.value == v then s else ⟨v, nameOf v⟩

/-- The tuner sends a note, or the user types one. (`VirtualKemperClientUI.js:384-392, 417-419`.) -/
inductive NoteEvent where
  | message (v : Nat)
  | type (text : Text)

/-- `VirtualKemperClientUI.js:384-392, 417-419`. -/
def Note.step (s : Note) : NoteEvent → Note
  | .message v => s.setValue v
  | .type t => Note.setValue ⟨s.value, some t⟩ (detectNote t)

/-- Whether rig buttons trigger morphing, and the checkbox for it. (`VirtualKemperMorph.js:9`, `VirtualKemperClientUI.js:190-198`.) -/
structure Morph where
  active : Bool
  checked : Bool

/-- `VirtualKemperClientUI.js:191` reads the name `rigBtnMorh`, which does not exist, so the checkbox is not checked. -/
def Morph.init (active : Bool) : Morph := ⟨active, false⟩

/-- `VirtualKemperClientUI.js:192-198`. -/
def Morph.click (m : Morph) : Morph := ⟨!m.checked, !m.checked⟩

end PySwitch.VirtualPanel
