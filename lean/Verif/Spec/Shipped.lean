import Verif.Model.Shipped
import Verif.Spec.Switch
/-
What the foot switches of the shipped configuration are expected to do.
-/
namespace PySwitch.Shipped.Spec
open PySwitch PySwitch.Wire PySwitch.Shipped

/-- A control change message. -/
def cc (number value : Nat) : Msg := .cc number value none

/-- The messages of an effect slot (0 is slot A): on and off. -/
def effect (slot : Nat) (on : Bool) : Msg := cc (17 + slot) (if on then 1 else 0)

/-- The tuner is switched on or off. -/
def tuner (on : Bool) : Msg := cc 31 (if on then 1 else 0)

/-- A tap: pressed and released. -/
def tap : List Msg := [cc 30 1, cc 30 0]

/-- The next and the previous bank. -/
def nextBank : List Msg := [cc 48 0]
def previousBank : List Msg := [cc 49 0]

/-- Selecting a rig of the current bank (0 is the first one): pressed and released. -/
def rig (slot : Nat) : List Msg := [cc (50 + slot) 1, cc (50 + slot) 0]

/-- Everything a switch can write, besides leaving the tuner. The switches are 1, 2, 3, 4, UP, A, B, C, D, DOWN and the button of
the wheel. -/
def mayWrite : Nat → List Msg
  | 0 => [effect 0 true, effect 0 false]
  | 1 => [effect 1 true, effect 1 false]
  | 2 => [effect 2 true, effect 2 false]
  | 3 => [effect 3 true, effect 3 false]
  | 4 => tap ++ [tuner true, tuner false]
  | 5 => rig 0 ++ previousBank
  | 6 => rig 1
  | 7 => rig 2
  | 8 => rig 3
  | 9 => rig 4 ++ nextBank
  | _ => []

/-- Is it an event of this switch? -/
def isOf (k : Nat) : Event → Bool
  | .process j _ _ => j == k
  | _ => false

/-- Everything which is written when the switch `k` is processed, in the course of a history. -/
def writtenBy (k : Nat) : State → List Event → List Msg
  | _, [] => []
  | st, e :: es => (if isOf k e then (step st e).2 else []) ++ writtenBy k (step st e).1 es

/-- The states and times in which the switch `k` is seen. -/
def seen (k : Nat) : List Event → List (Bool × Int)
  | [] => []
  | .process j pushed now :: es => if j = k then (pushed, now) :: seen k es else seen k es
  | _ :: es => seen k es

/-- Is the tuner on, by what has been reported and written? -/
def tunerAfter (on : Bool) : Event → List Msg → Bool
  | .tuner v, _ => v == 1
  | _, ms => ms.foldl (fun on m => if m = tuner true then true else if m = tuner false then false else on) on

/-- Is the tuner on after a history? -/
def tunerOn : Bool → List (Event × List Msg) → Bool
  | on, [] => on
  | on, x :: xs => tunerOn (tunerAfter on x.1 x.2) xs

/-- The tuner is off (on) whenever an event of the history happens. -/
def TunerIs (on : Bool) : State → List Event → Prop
  | _, [] => True
  | st, e :: es => st.ov.on = on ∧ TunerIs on (step st e).1 es

/-- The switch is not pressed, and no earlier press is waiting for its hold time. -/
def AtRest (k : Nat) (st : State) : Prop :=
  ∃ sw, st.ov.switches[k]? = some sw ∧ sw.pushedState = false ∧ sw.holdActive = false

/-- One use of a switch: it is seen released, or it is pressed (at `t0`), seen down for a while and released at the end. -/
inductive Use where
  | idle (now : Int)
  | press (t0 : Int) (down : List Int) (t1 : Int)

/-- How it is seen. -/
def Use.seen : Use → List (Bool × Int)
  | .idle now => [(false, now)]
  | .press t0 down t1 => (true, t0) :: (down.map fun t => (true, t)) ++ [(false, t1)]

/-- It is held for more than 600 milliseconds, as far as that can be seen. -/
def long (t0 : Int) (down : List Int) (t1 : Int) : Bool := (down ++ [t1]).any fun t => decide (t - t0 > 600)

/-- What the switches A, B, C, D and DOWN write when used. -/
def rigUse (k : Nat) : Use → List Msg
  | .idle _ => []
  | .press t0 down t1 =>
    if k = 5 && long t0 down t1 then previousBank
    else if k = 9 && long t0 down t1 then nextBank
    else rig (k - 5)

end PySwitch.Shipped.Spec
