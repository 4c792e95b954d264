import Verif.Model.TrafficRate
/-!
What the rates of messages are.
-/
namespace PySwitch.TrafficRate.Spec
open PySwitch.TrafficRate

/-- The received messages among the events. -/
def receivedOf (es : List (Ev α)) : List α := es.filterMap fun | .received m => some m | _ => none

/-- The sent messages among the events. -/
def sentOf (es : List (Ev α)) : List α := es.filterMap fun | .sent m => some m | _ => none

/-- No measurement among the events. -/
def Quiet (es : List (Ev α)) : Prop := ∀ e ∈ es, ∀ t, e ≠ .measure t

/-- `r` is the number of messages per second, rounded, if there are `count` messages in `millis` milliseconds. -/
def PerSecond (count millis : Nat) (r : Int) : Prop := 2 * (count : Int) * 1000 < (2 * r + 1) * millis ∧ (2 * r - 1) * millis ≤ 2 * (count : Int) * 1000

end PySwitch.TrafficRate.Spec
