import Verif.Model.ConnectionButton
/-!
What is true about the connection, and what the button looks like for it.
-/
namespace PySwitch.ConnectionButton.Spec
open PySwitch.ConnectionButton

/-- Is there a MIDI connection after the events? -/
def midi (es : List Event) : Bool := es.foldl (fun b e => match e with | .wrapper on => on | _ => b) false

/-- The emulator after the events: `none` if it is not running (or has not had a tick yet), else the state of its protocol, if it has one. -/
def engine (es : List Event) : Option (Option Int) := es.foldl (fun x e => match e with | .tick p => some p | .tickFails => none | .stop => none | _ => x) none

/-- The looks of the button: a symbol, a class and a title for each state. -/
def look : Shown → Button
  | .notConnected => ⟨["fa", "fa-times"], ["client-select", "not-connected"], "Not connected to any client device to control"⟩
  | .waiting => ⟨["fa", "fa-hourglass-half"], ["client-select", "waiting"], "Connected MIDI to the client, waiting for the protocol to connect..."⟩
  | .connected => ⟨["fa", "fa-check"], ["client-select", "connected"], "Connected to client"⟩

/-- What is to be shown if the emulator is running: without MIDI there is no connection; with MIDI, it is connected if there is no protocol, or if the protocol is (20). -/
def truth (midi : Bool) (protocol : Option Int) : Shown :=
  if midi = false then .notConnected else if protocol = none ∨ protocol = some 20 then .connected else .waiting

end PySwitch.ConnectionButton.Spec
