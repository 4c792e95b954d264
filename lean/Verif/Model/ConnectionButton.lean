/-!
Model of the button which shows the state of the connection to the client (`web/htdocs/js/ui/misc/ClientConnectionButton.js:1-98`), with the data it gets from the emulator
(`web/htdocs/js/PySwitchRunner.js:290-293, 311-329`, `web/htdocs/python/PySwitchRunner.py:211-232`).

Simplified: the data exists (it is created before the button); clicks are left out.
-/
namespace PySwitch.ConnectionButton

/-- `ClientConnectionButton.js:12-14`. -/
inductive Shown where
  | notConnected
  | waiting
  | connected
deriving DecidableEq, Repr

/-- The classes and the title of the button. (`ClientConnectionButton.js:74-96`.) -/
structure Button where
  icon : List String
  classes : List String
  title : String
deriving DecidableEq, Repr

/-- The data of the emulator and the button. `protocol` is `undefined` before the first tick. (`PySwitchRunner.js:292, 328`, `ClientConnectionButton.js:6-10`.) -/
structure State where
  wrapper : Bool
  protocol : Option Int
  last : Option Shown
  button : Button
deriving DecidableEq, Repr

/-- What happens: a MIDI connection is set or removed (`PySwitchRunner.js:311-321`), a tick of the emulator works (with the state of its protocol, if there is one) or fails
(`PySwitchRunner.py:211-228`), the emulator is stopped (`PySwitchRunner.py:231-232`), or the button is updated (`ClientConnectionButton.js:43-45`). -/
inductive Event where
  | wrapper (on : Bool)
  | tick (protocol : Option Int)
  | tickFails
  | stop
  | poll
deriving DecidableEq, Repr

/-- `ClientConnectionButton.js:58-65` `#getCurrentState`. -/
def getCurrentState (s : State) : Shown :=
  if !s.wrapper then .notConnected
  else if s.protocol = some (-10) then .connected
  else if s.protocol = some 20 then .connected
  else .waiting

/-- `ClientConnectionButton.js:70-97` `#setState`. -/
def setState (s : State) (x : Shown) : State :=
  if some x = s.last then s
  else
    let b : Button := ⟨[], ["client-select"], ""⟩
    let b : Button := match x with
      | .notConnected => ⟨b.icon ++ ["fa", "fa-times"], b.classes ++ ["not-connected"], "Not connected to any client device to control"⟩
      | .waiting => ⟨b.icon ++ ["fa", "fa-hourglass-half"], b.classes ++ ["waiting"], "Connected MIDI to the client, waiting for the protocol to connect..."⟩
      | .connected => ⟨b.icon ++ ["fa", "fa-check"], b.classes ++ ["connected"], "Connected to client"⟩
    { s with last := some x, button := b }

/-- `ClientConnectionButton.js:16-23`: the constructor. -/
def start : State := setState ⟨false, none, none, ⟨[], [], ""⟩⟩ .notConnected

/-- One event. (`PySwitchRunner.js:320`, `PySwitchRunner.py:225-228`, `ClientConnectionButton.js:51-53`.) -/
def step (s : State) : Event → State
  | .wrapper on => { s with wrapper := on }
  | .tick none => { s with protocol := some (-10) }
  | .tick (some p) => { s with protocol := some p }
  | .tickFails => s
  | .stop => s
  | .poll => setState s (getCurrentState s)

/-- A history. (No code of its own.) -/
def run (es : List Event) : State := es.foldl step start

end PySwitch.ConnectionButton
