import Verif.Model.Routing
namespace PySwitch.Routing.Spec
open PySwitch.Routing
open PySwitch.Wire (Msg)

/-- Messages delivered to device `t`, in order. -/
def deliveredTo (t : Nat) (es : List Eff) : List Msg :=
  es.filterMap fun
    | .send d m => if d = t then some m else none
    | .read _ _ _ => none

/-- All deliveries in a trace: target and message. -/
def deliveries (es : List Eff) : List (Nat × Msg) :=
  es.filterMap fun
    | .send d m => some (d, m)
    | .read _ _ _ => none

/-- The answers device `d` gave to `receive()` calls in a trace. -/
def answersOf (d : Nat) (es : List Eff) : List (Option Msg) :=
  es.filterMap fun
    | .read d' a _ => if d' = d then some a else none
    | .send _ _ => none

/-- The messages device `d` handed to the application. -/
def toApplOf (d : Nat) (es : List Eff) : List Msg :=
  es.filterMap fun
    | .read d' a true => if d' = d then a else none
    | _ => none

/-- The messages device `d` handed to the pass-through routings. -/
def toPassOf (d : Nat) (es : List Eff) : List Msg :=
  es.filterMap fun
    | .read d' a false => if d' = d then a else none
    | _ => none

/-- All messages handed to the application, in order. -/
def toApplAll (es : List Eff) : List Msg :=
  es.filterMap fun
    | .read _ a true => a
    | _ => none

/-- No routing from the application to itself. -/
def NoSelf (rs : List Routing) : Prop := ∀ r ∈ rs, ¬ (r.source = none ∧ r.target = none)

/-- Known messages: everything but unknown and bad events. -/
def Known : Msg → Bool
  | .cc _ _ _ => true
  | .pc _ _ => true
  | .sysex _ _ => true
  | .unknown _ => false
  | .bad _ => false

/-- The pass-through routings of a table as (source, target) pairs. -/
def passes (rs : List Routing) : List (Nat × Nat) :=
  rs.filterMap fun r => match r.source, r.target with
    | some s, some t => some (s, t)
    | _, _ => none

/-- The devices routed to the application. -/
def applSources (rs : List Routing) : List Nat :=
  rs.filterMap fun r => match r.source, r.target with
    | some s, none => some s
    | _, _ => none

/-- The devices the application sends to, one entry per routing. -/
def applTargets (rs : List Routing) : List Nat :=
  rs.filterMap fun r => match r.source, r.target with
    | none, some t => some t
    | _, _ => none

/-- What device `s` answers to its next `receive()`. -/
def nextRead (q : Reads) (s : Nat) : Option Msg := (q s).head?.join

/-- The `i`-th answer of device `s` (counted from 0). -/
def nthRead (q : Reads) (s i : Nat) : Option Msg := (q s)[i]?.join

end PySwitch.Routing.Spec
