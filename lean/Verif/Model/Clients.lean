/-!
Model of the connection of the emulator to a client, such as a Kemper or its virtual counterpart (`web/htdocs/js/ClientController.js`,
`PySwitchRunner.js:311-321`, `midi/PythonMidiWrapper.js`, `ui/PySwitchUI.js:576-588, 709-740`).

Everything which happens between two events is one step. There can be several searches at the same time, and virtual clients which are still
being created. How a search goes is the subject of `Model/PortScan.lean`: here it is over once, with a port or without. Simplified: the ports do
not change, the message queues are one log, the user interface is the one tab of the virtual client.
-/

namespace PySwitch.Clients

/-- What the emulator can talk to. -/
inductive Target where
  | port (name : String)
  | virtual (client : String)
deriving DecidableEq, Repr

/-- A MIDI wrapper: `PythonMidiWrapper` or `VirtualClient`. Each one which is created has its own key. -/
structure Wrapper where
  key : Nat
  target : Target
deriving DecidableEq, Repr

/-- The state: the choice in the local storage, the wrapper the emulator uses (`externalRefs.midiWrapper`), the name shown for the automatic
choice (`current`), the virtual client in the tab, the wrappers listening to a port, the wrappers with a running timer, the messages put to the
queues, the searches (by key, with the client of the configuration), the virtual clients being created, the next key. -/
structure State where
  saved : Option String := none
  wrapper : Option Wrapper := none
  current : Option String := none
  tab : Option Nat := none
  listening : List (Nat × String) := []
  timers : List Nat := []
  log : List (Nat × Nat) := []
  searches : List (Nat × String) := []
  creating : List (Nat × String) := []
  next : Nat := 0
deriving DecidableEq, Repr

/-- `clients/ClientFactory.js:9-16` `getInstance`: the clients there are. -/
def known : List String := ["kemper", "boomerang", "local"]

/-- If the virtual client has a timer: `clients/kemper/virtual/VirtualKemperClient.js:79-92`, but `model/VirtualClient.js:31-32`. -/
def hasTimer (client : String) : Bool := client == "kemper"

/-- If the virtual client has a user interface: `VirtualKemperClient.js:229-233`, but `model/VirtualClient.js:49-50`. -/
def hasInterface (client : String) : Bool := client == "kemper"

/-- `detach`: `midi/PythonMidiWrapper.js:40-43`, `VirtualKemperClient.js:215-224` (clearing an interval), `model/VirtualClient.js:43-44`. -/
def State.detach (s : State) (w : Wrapper) : State :=
  match w.target with
  | .port _ => { s with listening := s.listening.filter fun x => x.1 != w.key }
  | .virtual c => if hasTimer c then { s with timers := s.timers.filter (· != w.key) } else s

/-- The first part of `setMidiWrapper`. (`PySwitchRunner.js:315-317`.) -/
def State.detachOld (s : State) : State :=
  match s.wrapper with
  | none => s
  | some w => s.detach w

/-- `PySwitchRunner.js:311-321` `setMidiWrapper`. `externalRefs` exists, as the emulator has been initialised before (`Controller.js:156, 167`),
and there is no configuration before that (`ClientController.js:21`). -/
def State.setWrapper (s : State) (w : Option Wrapper) : State := { s.detachOld with wrapper := w }

/-- A `PythonMidiWrapper` is created: it listens from now on. (`midi/PythonMidiWrapper.js:13-28`.) -/
def State.newPort (s : State) (name : String) : State := { s with listening := s.listening ++ [(s.next, name)], next := s.next + 1 }

/-- `virtualClient.run(5)`. (`ClientController.js:158`.) -/
def State.runTimer (s : State) (key : Nat) (client : String) : State := if hasTimer client then { s with timers := s.timers ++ [key] } else s

/-- If a name is taken for the one of a virtual client. (`ClientController.js:141`.) -/
def isVirtual (name : String) : Bool := "virtual".toList.isPrefixOf name.toList

/-- `portName.substring(8)`. (`ClientController.js:143`.) -/
def clientOf (name : String) : String := String.ofList (name.toList.drop 8)

/-- `ClientController.js:135-188` `#connect`, up to the point where the virtual client is created. An unknown client raises an exception (145). -/
def State.connect (ports : List String) (s : State) (name : String) : State :=
  let s := { s.setWrapper none with current := none }
  if isVirtual name then
    if clientOf name ∈ known then { s with creating := s.creating ++ [(s.next, clientOf name)], next := s.next + 1 } else s
  else
    let s := { s with tab := none }
    if name ∈ ports then { ((s.newPort name).setWrapper (some ⟨s.next, .port name⟩)) with current := some name }
    else s

/-- `ClientController.js:20-30` `init`, with a configuration for the given client. A search leaves everything as it is at first. -/
def State.init (ports : List String) (s : State) (client : String) : State :=
  match s.saved with
  | none => { s with searches := s.searches ++ [(s.next, client)], next := s.next + 1 }
  | some v =>
    if v = "auto" ∨ v = "" then { s with searches := s.searches ++ [(s.next, client)], next := s.next + 1 } else s.connect ports v

/-- What can happen. -/
inductive Ev where
  /-- A configuration is loaded. (`Controller.js:167`.) -/
  | load (client : String)
  /-- The user chooses an entry, with a configuration loaded. (`PySwitchUI.js:580-584`.) -/
  | choose (value client : String)
  /-- A search has found a port. (`ClientController.js:45-53`.) -/
  | found (key : Nat) (port : String)
  /-- A search has found nothing. (`ClientController.js:56-58`.) -/
  | nothing (key : Nat)
  /-- A virtual client has been created. (`ClientController.js:155-164`.) -/
  | created (key : Nat)
  /-- A message is received. (`MidiHandler.js:123-127`, `PythonMidiWrapper.js:23-25`.) -/
  | message (port : String) (data : Nat)
deriving DecidableEq, Repr

/-- The rest of `#connect` when the virtual client is there. (`ClientController.js:155-164`, `PySwitchUI.js:709-740`.) -/
def State.attach (s : State) (key : Nat) (client : String) : State :=
  { ((s.setWrapper (some ⟨key, .virtual client⟩)).runTimer key client) with tab := if hasInterface client then some key else none }

def State.step (ports : List String) (s : State) : Ev → State
  | .load client => s.init ports client
  | .choose value client => { s with saved := some value }.init ports client
  | .found key port =>
    match s.searches.lookup key with
    | some _ => { s with searches := s.searches.filter fun x => x.1 != key }.connect ports port
    | none => s
  | .nothing key =>
    match s.searches.lookup key with
    | some client => { s with searches := s.searches.filter fun x => x.1 != key }.connect ports ("virtual-" ++ client)
    | none => s
  | .created key =>
    match s.creating.lookup key with
    | some client => { s with creating := s.creating.filter fun x => x.1 != key }.attach key client
    | none => s
  | .message port data => { s with log := s.log ++ (s.listening.filter fun x => x.2 == port).map fun x => (x.1, data) }

def run (ports : List String) (es : List Ev) : State := es.foldl (State.step ports) {}

end PySwitch.Clients
