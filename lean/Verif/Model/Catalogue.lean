/-!
Model of the catalogues of actions, callbacks and mappings of the configuration editor (`web/htdocs/js/model/parser/Parser.js:419-431, 454-466, 489-501`;
the three functions are the same), which are loaded when they are needed first and kept. A catalogue is a list of `n` clients; the meta information is
put into it client by client (`Parser.js:506-584`), and other callers can run in between. What is kept is a reference: here the number of the caller who
has loaded it.
-/

namespace PySwitch.Catalogue

/-- What a caller does: nothing yet, waiting for the definitions, putting in the meta information, or it has its result. -/
inductive Phase where
  | idle
  | fetching
  | mixing
  | done
deriving Repr, DecidableEq

/-- The kept catalogue (`Parser.js:27-29`), the callers, and for each catalogue how many clients have their meta information. -/
structure State where
  buffer : Option Nat := none
  phase : Nat → Phase := fun _ => .idle
  mixed : Nat → Nat := fun _ => 0

/-- What happens: somebody calls the function; the definitions of a caller have arrived (line 423); the meta information of the next client has been put
in (line 427); a request of a caller fails. -/
inductive Ev where
  | call (k : Nat)
  | fetched (k : Nat)
  | mix (k : Nat)
  | fail (k : Nat)
deriving Repr, DecidableEq

/-- The result of a caller: an exception, or a catalogue which is complete or not. (No code of its own.) -/
inductive Result where
  | error
  | catalogue (complete : Bool)
deriving Repr, DecidableEq

/-- What is returned in lines 420 and 430: the kept catalogue as it is now. -/
def State.result (n : Nat) (s : State) : Result :=
  match s.buffer with
  | some o => .catalogue (decide (s.mixed o = n))
  | none => .error

/-- The phase of a caller changes. (No code of its own.) -/
def State.set (s : State) (k : Nat) (p : Phase) : State := { s with phase := fun j => if j = k then p else s.phase j }

/-- `Parser.js:426-430`: the next client, or the end. -/
def State.next (n : Nat) (s : State) (k : Nat) : State × List (Nat × Result) :=
  if s.mixed k = n then (s.set k .done, [(k, s.result n)]) else (s, [])

/-- One event of `Parser.js:419-431`. Events which cannot happen change nothing. -/
def State.step (n : Nat) (s : State) : Ev → State × List (Nat × Result)
  | .call k =>
    if s.phase k = .idle then
      match s.buffer with
      | some _ => (s.set k .done, [(k, s.result n)])
      | none => (s.set k .fetching, [])
    else (s, [])
  | .fetched k =>
    if s.phase k = .fetching then State.next n { s.set k .mixing with buffer := some k } k
    else (s, [])
  | .mix k =>
    if s.phase k = .mixing then State.next n { s with mixed := fun j => if j = k then s.mixed k + 1 else s.mixed j } k
    else (s, [])
  | .fail k => if s.phase k = .fetching ∨ s.phase k = .mixing then (s.set k .done, [(k, .error)]) else (s, [])

/-- A history of events. (No code of its own.) -/
def State.run (n : Nat) (s : State) : List Ev → State × List (Nat × Result)
  | [] => (s, [])
  | e :: es =>
    let (s, a) := s.step n e
    let (s, b) := s.run n es
    (s, a ++ b)

end PySwitch.Catalogue
