import Verif.Model.Shipped
import Verif.Model.VirtualSetup
import Verif.Model.Table

/-!
The shipped configuration and the virtual Kemper, connected by two cables: foot switches of PySwitch (`Model/Shipped.lean`) write
to the device (`Model/VirtualSetup.lean`), whose reports arrive at PySwitch.

Simplifications: of the reports only those of the effect slots A to D and of the tuner are passed on (reports of the rig change
nothing about them, see `Shipped.step`). The effect slots and the tuner are bidirectional parameters, for which PySwitch sends no
requests (`controller/client.py:523-545`). The beacons are events of their own, and so PySwitch does not lose the connection;
what happens then is in `Model/Shipped.lean` (`lost`) and `Model/VirtualParams.lean`.
-/

namespace PySwitch.Stage
open PySwitch PySwitch.Wire PySwitch.Kemper

/-- PySwitch, the device and the messages on the cables. (No code of its own: both sides and the cables.) -/
structure Stage where
  app : Shipped.State
  dev : Setup.Device
  toDev : List (List Nat) := []
  toApp : List (List Nat) := []

/-- What can happen: PySwitch processes the foot switch `k`, sends a beacon, or takes the next message from the cable; the device takes the
next message, is updated, sends the values of the tuner, or its user interface is used. (No code of its own: see `Stage`.) -/
inductive Ev where
  | foot (k : Nat) (pushed : Bool) (now : Int)
  | beacon (flags lease : Nat)
  | appReceive
  | devReceive (now : Int) (date : List Nat)
  | devUpdate (now : Int)
  | devTuner
  | ui (date : List Nat) (e : Setup.UiEvent)
deriving Repr, DecidableEq

/-- `clients/kemper/__init__.py:702-716` `__send_beacon`: the bytes of the message. -/
def beaconBytes (flags lease : Nat) : List Nat := [240, 0, 32, 51, 2, 127, 126, 0, 64, 2, flags, lease, 247]

/-- `controller/client.py:361-392`: the value which a mapping of the table takes from a message. -/
def told (p : Table.Param) (m : Msg) : Option Int :=
  match Mapping.parse p.mapping m with
  | .ok (true, { value := some (.num n), .. }) => some n
  | _ => none

/-- `controller/client.py:361-392`: the reports in a message, for the mappings which the shipped configuration registers. -/
def reports (m : Msg) : List Shipped.Event :=
  ((List.range 4).flatMap fun k =>
    ((told (Table.effectType k) m).map (Shipped.Event.effectType k)).toList ++
    ((told (Table.effectState k) m).map (Shipped.Event.effectState k)).toList) ++
  ((told Table.tunerMode m).map Shipped.Event.tuner).toList

/-- PySwitch takes some reports. Nothing is written for them. (`controller/client.py:361-392`.) -/
def takeReports (app : Shipped.State) (es : List Shipped.Event) : Shipped.State :=
  es.foldl (fun a e => (Shipped.step a e).1) app

/-- One event. (`content/inputs.py`, `controller/client.py:291-310, 361-392`, `VirtualKemperClient.js:97-103, 183-199`.) -/
def step (s : Stage) : Ev → Stage
  | .foot k pushed now =>
    let r := Shipped.step s.app (.process k pushed now)
    { s with app := r.1, toDev := s.toDev ++ r.2.map (toBytes 0) }
  | .beacon flags lease => { s with toDev := s.toDev ++ [beaconBytes flags lease] }
  | .appReceive =>
    match s.toApp with
    | [] => s
    | b :: rest =>
      match (fromMessageBytes [0] b).1 with
      | none => { s with toApp := rest }
      | some m => { s with app := takeReports s.app (reports m), toApp := rest }
  | .devReceive now date =>
    match s.toDev with
    | [] => s
    | b :: rest =>
      let r := s.dev.receive now date b
      { s with dev := r.1, toDev := rest, toApp := s.toApp ++ r.2 }
  | .devUpdate now =>
    let r := s.dev.update now
    { s with dev := r.1, toApp := s.toApp ++ r.2 }
  | .devTuner =>
    let r := s.dev.tuner
    { s with dev := r.1, toApp := s.toApp ++ r.2 }
  | .ui date e =>
    let r := s.dev.ui date e
    { s with dev := r.1, toApp := s.toApp ++ r.2 }

/-- A history. (No code of its own: a history of `step`.) -/
def run : Stage → List Ev → Stage
  | s, [] => s
  | s, e :: es => run (step s e) es

/-- Both sides have been switched on. (`content/inputs.py`, `VirtualKemperClient.js:24-50`.) -/
def start (now : Int) (date : List Nat) : Stage := { app := Shipped.initial, dev := Setup.initial now date }

end PySwitch.Stage
