/-!
Model of the queue for the routes of the configuration editor
(`web/htdocs/js/routing/CallbackQueue.js`, `Routing.js:107-120`).

A callback is asynchronous: it is in progress from its start until it finishes (or fails), and anything can
happen meanwhile. Calls are numbered in the order of the calls.
-/

namespace PySwitch.CallbackQueue

/-- `CallbackQueue.js:23-24`, the callbacks in progress, and all callbacks which have been started. -/
structure State where
  queue : List Nat := []
  running : Bool := false
  active : List Nat := []
  started : List Nat := []
deriving DecidableEq, Repr

/-- `CallbackQueue.js:63-72` `#trigger`, with the start of the callback in lines 50-51. -/
def trigger (s : State) : State :=
  if s.running then s
  else
    match s.queue with
    | [] => s
    | c :: rest => { queue := rest, running := true, active := s.active ++ [c], started := s.started ++ [c] }

/-- What can happen: a route is called, or the callback at a position of those in progress finishes or throws.
(`Routing.js:107-120`, `CallbackQueue.js:45-58`.) -/
inductive Ev where
  | call (c : Nat)
  | finish (i : Nat)
  | fail (i : Nat)
deriving DecidableEq, Repr

/-- `CallbackQueue.js:30-40, 45-58`: `add` and the end of a callback. If it throws, lines 52-54 are not executed. -/
def step (s : State) : Ev → State
  | .call c => trigger { s with queue := s.queue ++ [c] }
  | .finish i => if i < s.active.length then trigger { s with active := s.active.eraseIdx i, running := false } else s
  | .fail i => { s with active := s.active.eraseIdx i }

/-- A history. (No code of its own: a history of `step`.) -/
def run : State → List Ev → State
  | s, [] => s
  | s, e :: es => run (step s e) es

end PySwitch.CallbackQueue
