import Verif.Model.Popup

/-!
What a user expects of popups, when one is open at a time: it stays until it is closed, it asks before it is closed by the user if it has a question,
and its callback is called once for each time it is closed. The handlers do not occur here.
-/

namespace PySwitch.Popup.Spec
open PySwitch.Popup (Options Call Ev)

/-- The user wants to close the popup `p`: what is called, and is it still open? -/
def leave (o : Options) (answer : Nat → Bool) (p : Nat) : Option Nat × List Call :=
  if o.confirm p then
    if answer p then (none, [.asked p true] ++ if o.onClose p then [.closed p] else []) else (some p, [.asked p false])
  else (none, if o.onClose p then [.closed p] else [])

/-- The open popup after an event, and the calls. -/
def step (o : Options) (now : Option Nat) : Ev → Option Nat × List Call
  | .show p => (some p, [])
  | .hide p => (none, if o.onClose p then [.closed p] else [])
  | .timer => (now, [])
  | .escape answer =>
    match now with
    | some p => leave o answer p
    | none => (none, [])
  | .click answer =>
    match now with
    | some p => leave o answer p
    | none => (none, [])
  | .cross p answer => if now = some p then leave o answer p else (now, [])
  | .enter =>
    match now with
    | some p => (some p, if o.onReturn p then [.returned p] else [])
    | none => (none, [])
  | .inside _ => (now, [])

/-- All calls of a history, and the popup which is open at its end. -/
def run (o : Options) : Option Nat → List Ev → Option Nat × List Call
  | now, [] => (now, [])
  | now, e :: es =>
    let r := step o now e
    let rest := run o r.1 es
    (rest.1, r.2 ++ rest.2)

/-- One popup at a time: a popup is shown when there is none (or to show something else in it), and the code hides only the popup which is open. -/
def Alone (o : Options) : Option Nat → List Ev → Prop
  | _, [] => True
  | now, e :: es =>
    (match e with
      | .show p => now = none ∨ now = some p
      | .hide p => now = some p
      | .timer => False
      | _ => True) ∧ Alone o (step o now e).1 es

/-- The history as the browser sees it: the timer of a popup runs (after 0 ms) before the next event. -/
def settled (es : List Ev) : List Ev :=
  es.flatMap fun
    | .show p => [.show p, .timer]
    | e => [e]

end PySwitch.Popup.Spec
