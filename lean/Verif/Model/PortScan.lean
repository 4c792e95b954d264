/-!
Model of the search for MIDI ports with a device behind (`web/htdocs/js/midi/MidiHandler.js`, `MidiBridgeHandler.js`, `ClientController.js`,
`DeviceController.js`): all ports are tried at the same time, each until it answers or its time is over.

Between two events (a MIDI message, a timer) all steps which wait for results only are done. For the search for a client this includes the look
at the configuration, as it has been loaded before (`Controller.js:156-167`). So all attempts have been started before the first event, and what
follows an answer or a timeout is one step. Left out: exceptions when messages are sent, log output, several searches at the same time.
-/

namespace PySwitch.PortScan

/-! ### Ports -/

/-- A port of the Web MIDI API. `key` distinguishes ports which look the same. -/
structure Port where
  name : String
  manufacturer : String
  key : Nat
deriving DecidableEq, Repr

/-- `MidiHandler.js:150-176` `getMatchingPortPairs`. -/
def pairs (inputs outputs : List Port) : List (Port × Port) :=
  inputs.flatMap fun i => (outputs.filter fun o => o.manufacturer == i.manufacturer && o.name == i.name).map fun o => (i, o)

/-- `MidiHandler.js:134-141` `getPortPair`. -/
def portPair (inputs outputs : List Port) (name : String) : Option (Port × Port) := (pairs inputs outputs).find? fun p => p.2.name == name

/-- `MidiBridgeHandler.js:55-65`, `ClientController.js:70-80` `findPort`. -/
def findPort (ports : List Port) (name : String) : Option Port := ports.find? fun p => p.name == name

/-! ### The search -/

/-- The callbacks of a search. (`MidiHandler.js:47-55`.) -/
inductive Call where
  | success (i : Nat)
  | failure
deriving DecidableEq, Repr

/-- The state: attempts without result, the map of attempts by the name of the port, the flag, the callbacks which have been called, and the
attempts which listen to their port. -/
structure State where
  pending : List Nat := []
  attempts : List (String × Nat) := []
  success : Bool := false
  calls : List Call := []
  listeners : List Nat := []
deriving DecidableEq, Repr

/-- `Map.set` of JavaScript. -/
def setAttempt (m : List (String × Nat)) (name : String) (i : Nat) : List (String × Nat) :=
  if m.any fun x => x.1 == name then m.map fun x => if x.1 = name then (name, i) else x else m ++ [(name, i)]

/-- The name of the port of an attempt. -/
def nameOf (names : List String) (i : Nat) : String := names[i]?.getD ""

/-- An attempt is started. (`MidiBridgeHandler.js:117-134`, `ClientController.js:117-129`.) -/
def State.register (names : List String) (s : State) (i : Nat) : State :=
  { s with pending := s.pending ++ [i], attempts := setAttempt s.attempts (nameOf names i) i, listeners := s.listeners ++ [i] }

/-- `MidiHandler.js:55-94` `scan`, for the names of the pairs of ports. -/
def start (names : List String) : State :=
  if names = [] then { calls := [.failure] } else (List.range names.length).foldl (State.register names) {}

/-- The attempt is at its end, it is not in the map any more, and its timer is stopped. (`MidiBridgeHandler.js:86-93` `cleanup`,
`ClientController.js:91-101`.) -/
def State.settle (names : List String) (s : State) (i : Nat) : State :=
  { s with pending := s.pending.filter (· != i), attempts := s.attempts.filter fun x => x.1 != nameOf names i }

/-- `MidiBridgeHandler.js:110-114` `doReject`, `ClientController.js:112-115`, then `MidiHandler.js:78-86`. -/
def State.reject (names : List String) (s : State) (i : Nat) : State :=
  let was := s.pending.contains i
  let s := s.settle names i
  let s := { s with listeners := s.listeners.filter (· != i) }
  if was ∧ s.success = false ∧ s.attempts = [] then { s with calls := s.calls ++ [Call.failure] } else s

/-- `MidiBridgeHandler.js:95-108` `doResolve`, `ClientController.js:103-110`, then `MidiHandler.js:69-76` and `DeviceController.js:39-47` or
`ClientController.js:44-53`: all other attempts are rejected. `keep`: the bridge to a controller goes on listening, the detector of a client
does not. -/
def State.resolve (names : List String) (keep : Bool) (s : State) (i : Nat) : State :=
  let s := s.settle names i
  let s := { s with listeners := if keep then s.listeners else s.listeners.filter (· != i), success := true, calls := s.calls ++ [Call.success i] }
  (s.attempts.map Prod.snd).foldl (State.reject names) s

/-- What happens: there is an answer for an attempt, or its time is over. -/
inductive Ev where
  | answer (i : Nat)
  | timeout (i : Nat)
deriving DecidableEq, Repr

/-- One step. An attempt which has a result does not listen any more, or with callbacks which do nothing (`MidiBridgeHandler.js:98-100`), and has
no timer. -/
def State.step (names : List String) (keep : Bool) (s : State) : Ev → State
  | .answer i => if i ∈ s.pending then s.resolve names keep i else s
  | .timeout i => if i ∈ s.pending then s.reject names i else s

/-- A search. -/
def run (names : List String) (keep : Bool) (es : List Ev) : State := es.foldl (State.step names keep) (start names)

end PySwitch.PortScan
