import Verif.Model.Morph
/-
What the morph displays have to show, read off the history of events.
-/
namespace PySwitch.Spec
open PySwitch PySwitch.Morph

/-- `x` lies between `a` and `b`, in whatever order these are. -/
def Between (a b x : Int) : Prop := (a ≤ x ∧ x ≤ b) ∨ (b ≤ x ∧ x ≤ a)

/-- The value the device has reported last to the display `k`. -/
def reported (k : Nat) (es : List Event) : Option Int :=
  es.foldl (fun last e => match e with
    | .value j (some v) => if j = k then some v else last
    | _ => last) none

/-- The next new value for the display `k` is to be ignored: it has been enabled or disabled, and no new value has come since. -/
def ignoring (k : Nat) : Option Int → Bool → List Event → Bool
  | _, ig, [] => ig
  | last, ig, .value j (some v) :: es =>
    if j = k then ignoring k (some v) (if last = some v then ig else false) es else ignoring k last ig es
  | last, ig, .enabling j :: es => ignoring k last (if j = k then true else ig) es
  | last, ig, _ :: es => ignoring k last ig es

/-- The displays at the start. -/
def start (n : Nat) : State := { cbs := List.replicate n {} }

end PySwitch.Spec
