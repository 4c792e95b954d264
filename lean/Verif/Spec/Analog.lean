import Verif.Model.Analog
/-
Specification vocabulary for analog inputs.
-/
namespace PySwitch.Analog

/-- A sensible configuration: a positive frame rate, a non-negative maximum, one to 65536 steps, and a calibration
window which is not empty. -/
structure Config.Valid (c : Config) : Prop where
  fps : 0 < c.fps
  max : 0 ≤ c.max
  steps : 1 ≤ c.numSteps ∧ c.numSteps ≤ 65536
  window : 1 ≤ c.window

/-- A raw reading of the input: 16 bits. -/
def IsRaw (v : Int) : Prop := 0 ≤ v ∧ v ≤ 65535

/-- The smallest and largest of some readings. -/
def bounds : List Int → Option (Int × Int)
  | [] => none
  | v :: vs => some (vs.foldl (fun b v => (min b.1 v, max b.2 v)) (v, v))

end PySwitch.Analog

namespace PySwitch.Analog

/-- The readings which are regarded: each one more than the interval (milliseconds) after the one regarded before. -/
def regarded (interval : Int) : Int → List (Int × Int) → List Int
  | _, [] => []
  | last, (value, now) :: rs =>
    if last + interval < now then value :: regarded interval now rs else regarded interval last rs

/-- The value the device has after some values were sent. -/
def current (sent : List (Int × Int)) : Option Int := sent.getLast?.map Prod.snd

end PySwitch.Analog
