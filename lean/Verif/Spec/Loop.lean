import Verif.Model.Loop
/-
Observations on a trace of the processing loop.
-/
namespace PySwitch.Loop
open PySwitch.Wire (Msg)

/-- Number of messages read in a trace. -/
def numMessages (es : List Eff) : Nat :=
  es.countP (fun e => match e with | .read (some _) => true | _ => false)

/-- The updateables called in a trace. -/
def updatesOf (es : List Eff) : List Nat :=
  es.filterMap (fun e => match e with | .update u => some u | _ => none)

/-- The messages handed to the client in a trace. -/
def clientOf (es : List Eff) : List (Option Msg) :=
  es.filterMap (fun e => match e with | .client a => some a | _ => none)

end PySwitch.Loop
