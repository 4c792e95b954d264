import Verif.Model.PortScan

/-!
Model of the lists of MIDI ports in the popups of the web application (`web/htdocs/js/ui/misc/PortsProvider.js`, `web/htdocs/js/ui/PySwitchUI.js:365-371,
451-457, 579-587`) and of the reception of MIDI messages (`web/htdocs/js/midi/MidiHandler.js:14-45, 112-129`), while ports come and go. Each event runs
to its end. The entries which are not ports (`additionalEntries`) are texts here.
-/

namespace PySwitch.Ports
open PySwitch.PortScan (Port pairs)

/-- The ports available now, whether MIDI access has been granted (`MidiHandler.js:23`), the inputs with a callback (`MidiHandler.js:118-128`), and the
contents each list has kept (`PortsProvider.js:6`). The lists are numbered. -/
structure State where
  inputs : List Port := []
  outputs : List Port := []
  access : Bool := false
  attached : List Port := []
  toc : Nat → Option (List String) := fun _ => none

/-- What happens: other ports are available; MIDI access is granted (`MidiHandler.js:17-31`); a popup is opened; a port sends a message. -/
inductive Ev where
  | ports (inputs outputs : List Port)
  | grant
  | openList (p : Nat)
  | message (port : Port)
deriving Repr, DecidableEq

/-- What the user or the application notices: the entries of a list, or the name of the port of a message which has been received. -/
inductive Out where
  | list (names : List String)
  | received (name : String)
deriving Repr, DecidableEq

/-- `MidiHandler.js:150-176` `getMatchingPortPairs`: there are none without access. -/
def State.pairs (s : State) : List (Port × Port) := if s.access then PortScan.pairs s.inputs s.outputs else []

/-- `PortsProvider.js:29-64` `getToc`, for a list with additional entries: it is filled only once. -/
def State.getToc (additional : Nat → List String) (s : State) (p : Nat) : List String :=
  match s.toc p with
  | some l => l
  | none => s.pairs.map (fun x => x.2.name) ++ additional p

/-- One event. -/
def State.step (additional : Nat → List String) (s : State) : Ev → State × List Out
  | .ports i o => ({ s with inputs := i, outputs := o }, [])
  | .grant => ({ s with access := true, attached := s.attached ++ (PortScan.pairs s.inputs s.outputs).map (·.1) }, [])
  | .openList p => ({ s with toc := fun q => if q = p then some (s.getToc additional p) else s.toc q }, [.list (s.getToc additional p)])
  | .message port => (s, if port ∈ s.attached then [.received port.name] else [])

/-- A history of events. (No code of its own.) -/
def State.run (additional : Nat → List String) (s : State) : List Ev → State × List Out
  | [] => (s, [])
  | e :: es =>
    let (s, a) := s.step additional e
    let (s, b) := s.run additional es
    (s, a ++ b)

end PySwitch.Ports
