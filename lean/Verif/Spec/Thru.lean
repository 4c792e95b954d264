import Verif.Model.Thru
import Verif.Spec.Foreign
import Verif.Spec.Routing
/-
Specification vocabulary for passing messages through.
-/
namespace PySwitch.Thru.Spec
open PySwitch.Wire

/-- The message, on another channel. SysEx messages have none. -/
def onChannel (ch : Nat) : Msg → Msg
  | .cc control value _ => .cc control value (some ch)
  | .pc patch _ => .pc patch (some ch)
  | m => m

end PySwitch.Thru.Spec
