import Verif.Model.EffectButton
import Verif.Spec.Binary
/-
Specification vocabulary for effect buttons.
-/
namespace PySwitch.EffectButton

/-- What happens to an effect button, if changes of the page take effect before the next press: `page b` is a change of the
answer of the enable callback and the update following it. -/
inductive Happening where
  | press | rig | reset | tick
  | page (b : Bool)
deriving Repr, DecidableEq

/-- The events of a happening. -/
def Happening.events : Happening → List Event
  | .press => [.press]
  | .rig => [.rig]
  | .reset => [.reset]
  | .tick => [.tick]
  | .page b => [.enable b, .tick]

/-- The events from the start, where the first update precedes all presses. -/
def events (hs : List Happening) : List Event := .tick :: hs.flatMap Happening.events

/-- Is the button enabled after these happenings? -/
def enabledAfter (start : Bool) : List Happening → Bool
  | [] => start
  | .page b :: hs => enabledAfter b hs
  | _ :: hs => enabledAfter start hs

/-- Does this happening, to a button which is enabled or not before, switch the indication off? -/
def Happening.clears (enabled : Bool) : Happening → Bool
  | .rig => true
  | .reset => true
  | .page b => b && !enabled
  | _ => false

/-- The number of presses since the last happening which switches the indication off; presses of a disabled button do not
count. -/
def presses (start : Bool) : Nat → List Happening → Nat
  | n, [] => n
  | n, .press :: hs => presses start (if start then n + 1 else n) hs
  | n, h :: hs => presses (enabledAfter start [h]) (if h.clears start then 0 else n) hs

/-- What is sent: the values set. -/
def sent (es : List Binary.Eff) : List Binary.Sent := (Binary.sets es).map (·.2)

end PySwitch.EffectButton
