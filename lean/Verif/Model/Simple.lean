import Verif.Model.Switch
import Verif.Model.Label

/-!
Model of the actions which do not depend on a device (`clients/local/actions/custom.py`, `hid.py`,
`fixed_text.py`), and of the hardware switch (`hardware/adafruit/AdafruitSwitch.py`) they are used
with.
-/

namespace PySwitch.Simple
open PySwitch.Label PySwitch.Layout

/-- `content/lib/pyswitch/hardware/adafruit/AdafruitSwitch.py:7-28`: the property `pushed` for the
level of the pin (`none`: `init` has not been called). The pin is pulled up, so it is low when the
switch is pushed. -/
def pushed (level : Option Bool) : Option Bool := level.map fun v => v == false

/-- What leaves the device: a MIDI message (raw bytes), or a key of the emulated keyboard.
(`custom.py:60-65`, `hid.py:46-52`.) -/
inductive Out where
  | midi (bytes : List Nat)
  | key (code : Nat)
deriving DecidableEq, Repr

/-- The parameters of the three actions. `text`, `color` and `brightness` are for the displays.
`keycodes` is the list built from the parameter in `hid.py:44`. -/
inductive Action where
  /-- `content/lib/pyswitch/clients/local/actions/custom.py:9-31` -/
  | customMessage (message : List Nat) (messageRelease : Option (List Nat)) (text : String)
      (color : Color) (brightness : Rat)
  /-- `content/lib/pyswitch/clients/local/actions/hid.py:11-32` -/
  | hidKeyboard (keycodes : List Nat) (text : String) (color : Color) (brightness : Rat)
  /-- `content/lib/pyswitch/clients/local/actions/fixed_text.py:5-21` -/
  | fixedText (text : String) (backColor textColor : Option Color)

/-- `push()`: `custom.py:60-61`, `hid.py:46-52` (`keyboard`: no `OSError` has been raised, see
`hid.py:65-69`), `fixed_text.py:48-49`. -/
def push (keyboard : Bool) : Action → List Out
  | .customMessage message _ _ _ _ => [.midi message]
  | .hidKeyboard codes _ _ _ => if keyboard then codes.map .key else []
  | .fixedText _ _ _ => []

/-- `release()`: `custom.py:63-65` (`None` and an empty list are false), `hid.py:54-55`,
`fixed_text.py:51-52`. -/
def release : Action → List Out
  | .customMessage _ (some (b :: bs)) _ _ _ => [.midi (b :: bs)]
  | _ => []

/-- The colour and the brightness the action gives to the LEDs in `update_displays`
(`custom.py:67-69`, `hid.py:57-59`). -/
def leds : Action → Option (Color × Rat)
  | .customMessage _ _ _ color b => some (color, b)
  | .hidKeyboard _ _ color b => some (color, b)
  | .fixedText _ _ _ => none

/-- `update_displays` for an action with a label (`custom.py:71-73`, `hid.py:61-63`,
`fixed_text.py:36-46`). A text colour is assigned to the attribute `color` of the label, which is
not used by anything (the property is `text_color`), so this changes nothing. `none` is the
exception of the setter of `back_color`. -/
def updateLabel (wrap : Option (String → String)) (lowMemory : Bool) (a : Action) (l : LabelState) :
    Option LabelState :=
  match a with
  | .customMessage _ _ text color _ => (l.setText wrap text lowMemory).setBackColor (some color)
  | .hidKeyboard _ text color _ => (l.setText wrap text lowMemory).setBackColor (some color)
  | .fixedText text back _ =>
    match back with
    | some c => (l.setText wrap text lowMemory).setBackColor (some c)
    | none => some (l.setText wrap text lowMemory)

/-- What one call of an action by its switch sends (`content/lib/pyswitch/controller/actions/__init__.py:130-138`). -/
def out (acts : Nat → Action) (keyboard : Bool) : Switch.Eff → List Out
  | .push a => push keyboard (acts a)
  | .release a => release (acts a)
  | _ => []

/-- A sample of the hardware: level of the pin, clock, and if a host for the keyboard is there.
(`AdafruitSwitch.py:22-28`, `hid.py:65-69`.) -/
structure Reading where
  level : Bool
  now : Int
  keyboard : Bool := true

/-- What the switch controller sees (`content/lib/pyswitch/controller/inputs.py:71-75`). All actions
are enabled, no override is installed. -/
def Reading.sample (r : Reading) : Switch.Sample :=
  { pushed := (pushed (some r.level)).getD false, now := r.now }

/-- What a switch with these actions sends, for each of the readings.
(No code of its own: repeated `controller/inputs.py:71-134`.) -/
def outputs (acts : Nat → Action) (c : Switch.Config) (holdTime : Int) (rs : List Reading) :
    List (List Out) :=
  List.zipWith (fun r es => es.flatMap (out acts r.keyboard)) rs
    (Switch.run c (Switch.initial holdTime) (rs.map Reading.sample)).1

end PySwitch.Simple
