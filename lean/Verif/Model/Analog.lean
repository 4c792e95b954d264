import Verif.Model.Misc
import Verif.Model.Num
/-
Model of `AnalogAction` (`content/lib/pyswitch/controller/actions/AnalogAction.py`). Floats are rational numbers. The
preview display (lines 56-61, 67-69, 129-141) is left out here.
-/
namespace PySwitch.Analog

/-- The exceptions which can be raised. (`AnalogAction.py:36, 38, 44, 102, 115`.) -/
inductive Err where
  | zeroDivision
  | attributeError
deriving Repr, DecidableEq

/-- The parameters, `AnalogAction.py:8-26`. `sysex` is the condition of line 27 (the mapping sends a SysEx message).
The enable callback is left out: a disabled action is not processed. -/
structure Config where
  sysex : Bool := false
  fps : Rat := 24
  maxValue : Option Int := none
  numSteps : Int := 128
  calibrate : Bool := false
  calMinWindow : Rat := 1 / 4
  transfer : Option (Int → Int) := none
  minRaw : Option Int := some 1024

/-- `AnalogAction.py:27-32`. -/
def Config.max (c : Config) : Int :=
  match c.maxValue with
  | some m => m
  | none => if c.sysex then 16383 else 127

/-- `AnalogAction.py:36, 44, 52`. -/
def Config.factor (c : Config) : Rat := 65536 / (c.max + 1 : Int)

/-- `AnalogAction.py:44`. -/
def Config.stepWidth (c : Config) : Int := pyInt (65536 / c.numSteps)

/-- `AnalogAction.py:52`. -/
def Config.window (c : Config) : Int := pyInt (65536 * c.calMinWindow)

/-- The state, `AnalogAction.py:38-52`. `cal` is `__cal_min` and `__cal_max`, which are set together; `calFactor` is `none` until
the attribute exists. -/
structure State where
  period : PeriodCounter
  last : Int := -1
  cal : Option (Int × Int) := none
  calFactor : Option Rat := none
deriving Repr, DecidableEq

/-- `AnalogAction.py:27-61`, the constructor: the divisions by zero in lines 36, 38 and 44 raise an exception. -/
def initial (c : Config) : Except Err State :=
  if c.max + 1 = 0 ∨ c.fps = 0 ∨ c.numSteps = 0 then .error .zeroDivision
  else .ok { period := ⟨pyInt (1000 / c.fps), 0⟩ }

/-- `AnalogAction.py:83-95`: the calibration window and factor after a reading. Where both bounds change, line 95 overwrites
the factor of line 91; a divisor of zero is impossible there, since one bound has just been moved away. -/
def widen (cal : Option (Int × Int)) (factor : Option Rat) (value : Int) : (Int × Int) × Option Rat :=
  match cal with
  | none => ((value, value), factor)
  | some (lo, hi) =>
    let (lo, factor) := if value < lo then (value, some (65536 / ((hi - value : Int) : Rat))) else (lo, factor)
    if hi < value then ((lo, value), some (65536 / ((value - lo : Int) : Rat))) else ((lo, hi), factor)

/-- `AnalogAction.py:111`: below the threshold for a stable zero. -/
def Config.below (c : Config) (value : Int) : Bool :=
  match c.minRaw with
  | some m => decide (value < m)
  | none => false

/-- `AnalogAction.py:106-121`: the value to be sent for a (possibly calibrated) input value. -/
def output (c : Config) (value : Int) : Except Err Int :=
  match c.transfer with
  | some f => .ok (f value)
  | none =>
    if c.below value then .ok 0
    else if c.stepWidth = 0 then .error .zeroDivision
    else
      let v : Int := pyRound ((value : Rat) / c.stepWidth) * c.stepWidth
      let v := pyInt ((v : Rat) / c.factor)
      let v := if v < 0 then 0 else v
      .ok (if v > c.max then c.max else v)

/-- `AnalogAction.py:79-127` `process`, at a clock reading: the new state and the values sent (at most one). -/
def process (c : Config) (st : State) (value now : Int) : Except Err (State × List Int) :=
  let e := st.period.exceeded now
  let st := { st with period := e.2 }
  if !e.1 then .ok (st, [])
  else
    let send (st : State) (value : Int) : Except Err (State × List Int) :=
      match output c value with
      | .error x => .error x
      | .ok v => if st.last ≠ v then .ok ({ st with last := v }, [v]) else .ok (st, [])
    if c.calibrate then
      let w := widen st.cal st.calFactor value
      let st := { st with cal := some w.1, calFactor := w.2 }
      if w.1.2 - w.1.1 < c.window then .ok (st, [])
      else match w.2 with
        | none => .error .attributeError
        | some f => send st (pyInt (((value - w.1.1 : Int) : Rat) * f))
    else send st value

/-- A sequence of readings with their clock readings: the final state, and the values sent with their times.
(No code of its own: repeated calls of `AnalogAction.py:79-141`.) -/
def run (c : Config) : State → List (Int × Int) → Except Err (State × List (Int × Int))
  | st, [] => .ok (st, [])
  | st, (value, now) :: rs =>
    match process c st value now with
    | .error x => .error x
    | .ok (st', vs) =>
      match run c st' rs with
      | .error x => .error x
      | .ok (st'', rest) => .ok (st'', vs.map (fun v => (now, v)) ++ rest)

end PySwitch.Analog
