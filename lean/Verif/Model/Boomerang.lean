import Verif.Model.Local
/-
Model of `clients/boomerang/actions/boomerang.py`: the actions for the Boomerang III Phrase Sampler. They are built on
`clients/local/actions/rotate.py` (`Model/Local.lean`). Line numbers refer to `boomerang.py`, if not stated otherwise.
-/
namespace PySwitch.Boomerang
open PySwitch.Local

/-- The functions offered by the file, `boomerang.py:5-302`. -/
inductive Fn where
  | playStopAll | syncSerial | muteThru | panic | erase | eraseAll | stack | copy | fade | octave | once | reverse
deriving Repr, DecidableEq

/-- `boomerang.py:16-17, 41-42, 66-67, 91-92, 116-117, 141-142, 166-167, 191-192, 216-217, 241-242, 266-267, 291-292`:
`pc_1` and `pc_2`. -/
def Fn.programs : Fn → Nat × Nat
  | .playStopAll => (17, 25)
  | .syncSerial => (43, 65)
  | .muteThru => (3, 8)
  | .panic => (11, 40)
  | .erase => (16, 61)
  | .eraseAll => (28, 35)
  | .stack => (15, 23)
  | .copy => (1, 4)
  | .fade => (21, 32)
  | .octave => (2, 49)
  | .once => (10, 18)
  | .reverse => (47, 56)

/-- The parameters of a function (`boomerang.py:5-14`). Colors are opaque numbers: `color` is the color and `bright`, `dark` are
`dim_color(color, led_brightness_1)` and `dim_color(color, led_brightness_2)`. -/
structure Params where
  text : String
  color : Nat
  bright : Nat
  dark : Nat
  hasLabel : Bool := true
  numLeds : Nat := 1
deriving Repr, DecidableEq

/-- `boomerang.py:330-339`: the LED colors for more than one LED. Row `i` is for action `i`. -/
def ledColors (p : Params) : List (List Nat) :=
  (List.range p.numLeds).map (fun (i : Nat) =>
    (List.range p.numLeds).map (fun (j : Nat) => if (i : Int) = p.numLeds - j - 1 then p.bright else p.dark))

/-- `rotate.py:24-40`: action number `i` of several ones; only the first one sends messages and drives the display. -/
def action (f : Fn) (p : Params) (i : Nat) (colors : List Nat) : Rotate :=
  if i = 0 then
    { messages := [[207, f.programs.1], [207, f.programs.2]], ledColors := colors, displayColors := [p.color],
      texts := [p.text], hasLabel := p.hasLabel }
  else { messages := [], ledColors := colors, hasLabel := false }

/-- `boomerang.py:308-345` `_BOOMERANG_ACTION`, with `rotate.py:10-56` `ROTATING_MESSAGES`: the actions put on the switch. -/
def actions (f : Fn) (p : Params) : List Rotate :=
  if 1 < p.numLeds then (List.range p.numLeds).map (fun i => action f p i ((ledColors p).getD i []))
  else [action f p 0 [p.bright, p.dark]]

/-- All actions of a switch get the same events; the effects of each action, per event.
(No code of its own: `controller/inputs.py:91-134` calls all actions of the switch.) -/
def runAll (cs : List Rotate) (es : List RotateEvent) : Except Err (List (List (List RotateEff))) :=
  cs.mapM (fun c => (c.run {} es).map (·.2))

end PySwitch.Boomerang
