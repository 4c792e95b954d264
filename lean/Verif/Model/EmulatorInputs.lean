/-!
Model of the inputs of the emulated controller: switches, potentiometers and encoder wheels which are moved with the mouse or by touch
(`web/htdocs/js/ui/PySwitchFrontend.js`, `web/htdocs/js/ui/misc/WcRotationInput.js`), and how the firmware reads them
(`web/htdocs/python/wrappers/wrap_io.py`).
-/

namespace PySwitch.EmulatorInputs

/-! ### Switches -/

/-- Events of the overlay of a switch (`PySwitchFrontend.js:130, 137`). There is no handler for the last one. -/
inductive Pointer where
  | mousedown
  | touchstart
  | mouseup
  | mouseout
  | mouseleave
  | touchend
  | touchcancel
deriving Repr, DecidableEq

/-- Comments in the MIDI monitor (`PySwitchFrontend.js:134, 139`). -/
inductive Comment where
  | pushed
  | released
deriving Repr, DecidableEq

/-- `dataset.pushed` (texts: not there, `"true"` or `"false"`), and the comments made. -/
structure Switch where
  pushed : Option Bool := none
  comments : List Comment := []
deriving Repr, DecidableEq

/-- `PySwitchFrontend.js:130-143`, with an open monitor. `dataset.pushed` is a text, so that `"false"` also counts as true in the condition of line 138. -/
def Switch.on (s : Switch) : Pointer → Switch
  | .mousedown => { pushed := some true, comments := s.comments ++ [.pushed] }
  | .touchstart => { pushed := some true, comments := s.comments ++ [.pushed] }
  | .mouseup => { pushed := some false, comments := if s.pushed.isSome then s.comments ++ [.released] else s.comments }
  | .touchend => { pushed := some false, comments := if s.pushed.isSome then s.comments ++ [.released] else s.comments }
  | .mouseout => { s with pushed := some false }
  | .mouseleave => { s with pushed := some false }
  | .touchcancel => s

/-- `wrap_io.py:49-58` `value`. -/
def Switch.value (s : Switch) : Nat := if s.pushed = some true then 0 else 1

/-- Is it pushed for the firmware (`content/lib/pyswitch/hardware/adafruit/AdafruitSwitch.py:24-28`)? -/
def Switch.isPushed (s : Switch) : Bool := s.value == 0

/-- An event of the user, or the firmware reads the switch. -/
inductive SwitchEv where
  | user (e : Pointer)
  | poll
deriving Repr, DecidableEq

/-- What the firmware reads, one value for each time (`Switch.on` and `Switch.isPushed` in order). -/
def reads : Switch → List SwitchEv → List Bool
  | _, [] => []
  | s, .user e :: es => reads (s.on e) es
  | s, .poll :: es => s.isPushed :: reads s es

/-! ### Potentiometers -/

/-- `PySwitchFrontend.js:151, 160-163` (the value is 0 at first) and `wrap_io.py:77-86`: what is read after these inputs. -/
def potValue (inputs : List Nat) : Nat := inputs.getLast?.getD 0

/-! ### Wheels -/

/-- `WcRotationInput.js:5-9`, with whether the handlers for moves are attached, and the position which the firmware reads
(`PySwitchFrontend.js:171, 181-183`, `wrap_io.py:102-111`). -/
structure Wheel where
  center : Rat := 0
  position : Int := 0
  start : Int := 0
  attached : Bool := false
  read : Int := 0
deriving Repr, DecidableEq

/-- Events of the pointer with its horizontal position. A move can be anywhere in the document. -/
inductive WheelEv where
  | down (x : Rat)
  | move (x : Rat)
  | up
deriving Repr, DecidableEq

/-- `Math.round` (used in `WcRotationInput.js:124`). -/
def mathRound (x : Rat) : Int := (x + 1 / 2).floor

/-- `WcRotationInput.js:109-151`, with `trigger = "manipulate"` (`PySwitchFrontend.js:179`). -/
def Wheel.on (w : Wheel) : WheelEv → Wheel
  | .down x => { w with center := x, start := w.position, attached := true }
  | .move x =>
    if w.attached then
      { w with position := mathRound (w.start + (x - w.center)), read := mathRound (w.start + (x - w.center)) }
    else w
  | .up => { w with attached := false }

/-- A history. -/
def Wheel.run (w : Wheel) (es : List WheelEv) : Wheel := es.foldl Wheel.on w

end PySwitch.EmulatorInputs
