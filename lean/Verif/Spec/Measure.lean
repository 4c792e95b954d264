import Verif.Model.Misc
/-
What a runtime measurement has to tell.
-/
namespace PySwitch.Measure
open PySwitch

/-- When the running measurement has been started, and the times measured since the last report. -/
structure Open where
  start : Option Int := none
  times : List Int := []
deriving Repr, DecidableEq

/-- A report starts everything anew. -/
def track (o : Open) : MeasureEvent × Option RuntimeMeasurement → Open
  | (.start t, _) => { o with start := some t }
  | (.finish t, _) =>
    match o.start with
    | some s => { o with times := o.times ++ [t - s] }
    | none => o
  | (.update _, some _) => {}
  | (.update _, none) => o

/-- The times measured since the last report, for a history. -/
def open_ (tr : List (MeasureEvent × Option RuntimeMeasurement)) : Open := tr.foldl track {}

/-- The times of the reports. -/
def reports (tr : List (MeasureEvent × Option RuntimeMeasurement)) : List Int :=
  tr.filterMap (fun x => match x with | (.update t, some _) => some t | _ => none)

/-- The clock reading of a call. -/
def time : MeasureEvent → Int
  | .start t => t
  | .finish t => t
  | .update t => t

/-- The measurement tells about these times: number, sum, the largest one (0 if there are none), and an average which lies
between them. -/
structure Tells (m : RuntimeMeasurement) (times : List Int) : Prop where
  calls : m.num = times.length
  sum : m.aggr = times.sum
  upper : ∀ d ∈ times, d ≤ m.value
  max : m.value ∈ times ∨ m.value = 0
  none : times = [] → m.value = 0 ∧ m.average = 0
  average : ∀ lo hi, times ≠ [] → (∀ d ∈ times, lo ≤ d ∧ d ≤ hi) → lo ≤ m.average ∧ m.average ≤ hi

end PySwitch.Measure
