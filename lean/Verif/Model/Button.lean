import Verif.Model.Switch
import Verif.Model.PushButton
import Verif.Model.Binary
import Verif.Model.Client
import Verif.Model.Table
/-
Model of a foot switch with one on/off action, put together from the models of its parts: `SwitchController`
(`Model/Switch.lean`), `PushButtonAction` (`Model/PushButton.lean`), `BinaryParameterCallback` (`Model/Binary.lean`) and `Client`
(`Model/Client.lean`). On top of it: the actions which are defined in that way (`clients/kemper/actions/looper.py`, `tempo.py`,
`fixed_fx.py`, `tuner.py`, `rig_volume_boost.py` and `clients/local/actions/binary_switch.py`), and the closed loop of such a
switch with a device.
-/
namespace PySwitch.Button
open PySwitch PySwitch.Wire PySwitch.Mapping

/-! ### Action and callback -/

/-- A `PushButtonAction` with a `BinaryParameterCallback`. `feedback` tells if `client.set` feeds the value back at once
(`controller/client.py:569-575`, bidirectional protocol). -/
structure Config where
  mode : PushButton.Mode := .holdMomentary
  callback : Binary.Config
  feedback : Bool := false

/-- The state of the action is `cb.state`. (`controller/actions/__init__.py:220-230`.) -/
structure State where
  period : PeriodCounter
  cb : Binary.State
deriving Repr, DecidableEq

/-- What happens to the action: see `Model/PushButton.lean` and `Model/Binary.lean` (`value`, `reset`, `enable`).
(`controller/actions/__init__.py:242-314`, `controller/callbacks/__init__.py:197-248`.) -/
inductive Op where
  | push (now : Int)
  | release (now : Int)
  | value (v : Option Int)
  | reset
  | enable (v : Option Int)
deriving Repr, DecidableEq

/-- The value which is sent, if it is a single one. (`controller/callbacks/__init__.py:211`.) -/
def firstSet : List Binary.Eff → Option Int
  | [] => none
  | .set _ (.one n) :: _ => some n
  | _ :: es => firstSet es

/-- The value fed back in the course of `state_changed_by_user` (callbacks/__init__.py:197-219) for the new state `s`. -/
def fedBack (c : Config) (cb : Binary.State) (s : Bool) : Option Int :=
  if c.feedback then firstSet (Binary.stateChanged c.callback { cb with state := s }) else none

/-- actions/__init__.py:242-252, the setter of `state`. -/
def setState (c : Config) (st : State) (s : Bool) : State × List Binary.Eff :=
  if s = st.cb.state then (st, [])
  else
    let r := Binary.toggle c.callback st.cb (fedBack c st.cb s)
    ({ st with cb := r.1 }, r.2)

/-- actions/__init__.py:258-288 `push`. -/
def push (c : Config) (st : State) (now : Int) : State × List Binary.Eff :=
  match c.mode with
  | .enable => setState c st true
  | .disable => setState c st false
  | .latch => setState c st (!st.cb.state)
  | .momentary => setState c st true
  | .momentaryInverse => setState c st false
  | .holdMomentary => setState c { st with period := st.period.reset now } (!st.cb.state)
  | .oneShot => setState c { st with cb := { st.cb with state := false } } true
  | .noStateChange => (st, [])

/-- actions/__init__.py:291-308 `release`. -/
def release (c : Config) (st : State) (now : Int) : State × List Binary.Eff :=
  match c.mode with
  | .momentary => setState c st false
  | .momentaryInverse => setState c st true
  | .holdMomentary =>
    let e := st.period.exceeded now
    if e.1 then setState c { st with period := e.2 } (!st.cb.state) else ({ st with period := e.2 }, [])
  | .oneShot =>
    let r := Binary.step c.callback st.cb .shotEnd
    ({ st with cb := r.1 }, r.2)
  | _ => (st, [])

/-- One event. (See `Op`.) -/
def step (c : Config) (st : State) : Op → State × List Binary.Eff
  | .push now => push c st now
  | .release now => release c st now
  | .value v => let r := Binary.step c.callback st.cb (.value v); ({ st with cb := r.1 }, r.2)
  | .reset => let r := Binary.step c.callback st.cb .reset; ({ st with cb := r.1 }, r.2)
  | .enable v => let r := Binary.step c.callback st.cb (.enable v); ({ st with cb := r.1 }, r.2)

/-- A history. (No code of its own: a history of `step`.) -/
def run (c : Config) : State → List Op → List (List Binary.Eff) × State
  | st, [] => ([], st)
  | st, o :: os =>
    let r := step c st o
    let rest := run c r.1 os
    (r.2 :: rest.1, rest.2)

/-- The action when the switch has been set up: inputs.py:52-55 calls `update_displays`, before any value is known. -/
def initial (c : Config) (holdTime : Int) (disable : Binary.OneOrMany Binary.DVal) : State :=
  { period := ⟨holdTime, 0⟩, cb := (Binary.updateDisplays c.callback (Binary.initial disable)).1 }

/-! ### From the switch to the wire -/

/-- A switch with one action. `mid` is the mapping (by number) of the callback in the client; `channel` is the output channel.
(`controller/inputs.py:27-68`.) -/
structure Chain where
  button : Config
  mid : Nat := 0
  channel : Nat := 0

/-- The state of all parts. (`controller/inputs.py:27-68`.) -/
structure ChainState where
  switch : Switch.State
  button : State
  client : Client.State

/-- `client.set` with the value of the callback. (Values are not negative.). (`client.py:291-310`.) -/
def toSetVal : Binary.Sent → SetVal
  | .one n => .one n.toNat
  | .many ns => .many (ns.map Int.toNat)

/-- The calls of the client made by the callback (callbacks/__init__.py:197-222), in order: `client.set` for the mapping and
`client.request` (the listener is number 0). A disable mapping is not modelled here. -/
def callClient (ch : Chain) (now : Int) : Client.State → List Binary.Eff → Except PyErr (Client.State × List Client.Eff)
  | cl, [] => .ok (cl, [])
  | cl, e :: es =>
    match (match e with
      | .set _ v => Client.set cl ch.mid (toSetVal v)
      | .request => Client.request cl now ch.mid (some 0)
      | _ => .ok (cl, [])) with
    | .error e => .error e
    | .ok (cl', es') =>
      match callClient ch now cl' es with
      | .error e => .error e
      | .ok (cl'', es'') => .ok (cl'', es' ++ es'')

/-- The bytes written to the port (`adafruit_midi`, `send`). (`web/htdocs/python/adafruit_midi/__init__.py:148-175`.) -/
def written (ch : Chain) : List Client.Eff → List Nat
  | [] => []
  | .send m :: es => toBytes ch.channel m ++ written ch es
  | _ :: es => written ch es

/-- inputs.py:128-132 and 93-98: the switch calls the action. -/
def callAction (ch : Chain) (now : Int) : ChainState → List Switch.Eff → Except PyErr (ChainState × List Nat)
  | st, [] => .ok (st, [])
  | st, e :: es =>
    let r := match e with
      | .push _ => step ch.button st.button (.push now)
      | .release _ => step ch.button st.button (.release now)
      | _ => (st.button, [])
    match callClient ch now st.client r.2 with
    | .error e => .error e
    | .ok (cl, es') =>
      match callAction ch now { st with button := r.1, client := cl } es with
      | .error e => .error e
      | .ok (st', bs) => .ok (st', written ch es' ++ bs)

/-- One `process()` of the switch (inputs.py:71-134), which has the action number 0. -/
def sample (ch : Chain) (st : ChainState) (s : Switch.Sample) : Except PyErr (ChainState × List Nat) :=
  let r := Switch.process { actions := [0] } st.switch s
  callAction ch s.now { st with switch := r.1 } r.2

/-- Any number of them: all bytes written. (No code of its own: repeated calls of `controller/inputs.py:71-134`.) -/
def samples (ch : Chain) : ChainState → List Switch.Sample → Except PyErr (ChainState × List Nat)
  | st, [] => .ok (st, [])
  | st, s :: ss =>
    match sample ch st s with
    | .error e => .error e
    | .ok (st', bs) =>
      match samples ch st' ss with
      | .error e => .error e
      | .ok (st'', bs') => .ok (st'', bs ++ bs')

/-! ### The actions -/

/-- `BinaryParameterCallback` with the default values (callbacks/__init__.py:79-134): on is 1 or more. `reported` is the test of
`mapping.response`. -/
def defaultCallback (p : Table.Param) : Binary.Config :=
  { compare := .greaterEqual, reference := 1, enable := .one 1, reported := p.mapping.response.truthy, color := fun _ _ => 0 }

/-- looper.py: all functions build the same action. -/
def looper (p : Table.Param) : Config := { mode := .momentary, callback := defaultCallback p }

/-- tempo.py:21: the parameter of `TAP_TEMPO`. -/
def tapTempoParam : Table.Param := (Table.tempo[0]?).getD Table.rigDate

/-- tempo.py:10-27 `TAP_TEMPO`. -/
def tapTempo : Config := { mode := .momentary, callback := defaultCallback tapTempoParam }

/-- fixed_fx.py:27-87 `FIXED_EFFECT_STATE`: the parameter for a slot id. An unknown id raises an `UnboundLocalError` (line 77). -/
def fixedEffect (slot : Nat) : Option Table.Param := Table.fixed[slot]?

/-- fixed_fx.py:27-87: the action. -/
def fixedEffectState (slot : Nat) (mode : PushButton.Mode := .holdMomentary) : Option Config :=
  (fixedEffect slot).map fun p => { mode, callback := defaultCallback p }

/-- tuner.py:7-45 `TUNER_MODE`: on is exactly 1. (`state_changed_by_user`, lines 40-45, does the same as the one of the base class
for a single value which is not "auto".) -/
def tunerMode (mode : PushButton.Mode := .holdMomentary) : Config :=
  { mode, callback := { defaultCallback Table.tunerMode with compare := .equal } }

/-- kemper/__init__.py:61-62 `NRPN_VALUE`: `int(16383 * value)`, for the value `num / den`, not negative. -/
def nrpnValue (num den : Nat) : Int := (16383 * num / den : Nat)

/-- rig_volume_boost.py:10-37 `RIG_VOLUME_BOOST`: callback and value for "off". -/
def volumeBoost (num den : Nat) (mode : PushButton.Mode := .holdMomentary) (remember : Bool := true) :
    Config × Binary.OneOrMany Binary.DVal :=
  ({ mode, callback := { compare := .greaterEqual, reference := nrpnValue num den, enable := .one (nrpnValue num den),
                         color := fun _ _ => 0 } },
   .one (if remember then .auto else .num (nrpnValue 1 2)))

/-! ### Closed loop with a device -/

/-- What the device gets. (The messages of `client.py:291-325`.) -/
inductive Cmd where
  | set (v : Int)
  | ask
deriving Repr, DecidableEq

/-- The switch, the client's knowledge about a pending request, the messages on their way in both directions, the value of the
parameter in the device, and what the LEDs show (color, and bright or dimmed).
(No code of its own: the parts are modelled in the files named above.) -/
structure World where
  button : State
  pending : Bool := false
  toDevice : List Cmd := []
  fromDevice : List Int := []
  device : Int
  shown : Option (Nat × Bool)
deriving Repr, DecidableEq

/-- What happens: the user pushes or releases the switch, the periodic update (200 ms), the device takes the next message, the
next answer arrives, a pending request is given up, the value is changed at the device, the action is reset (change of page).
(No code of its own: see `World`.) -/
inductive Ev where
  | push (now : Int)
  | release (now : Int)
  | update
  | device
  | deliver
  | timeout
  | knob (v : Int)
  | reset
deriving Repr, DecidableEq

/-- The LEDs after some effects. (`controller/actions/__init__.py:76-118`.) -/
def ledsAfter : Option (Nat × Bool) → List Binary.Eff → Option (Nat × Bool)
  | s, [] => s
  | _, .led col b :: es => ledsAfter (some (col, b)) es
  | s, _ :: es => ledsAfter s es

/-- client.py:314-349: a request is sent if there is none pending (`C22`). A bidirectional parameter has no request. -/
def ask (c : Config) (w : World) : World :=
  if c.feedback || w.pending then w else { w with pending := true, toDevice := w.toDevice ++ [.ask] }

/-- The effects of the callback on the rest of the world. (`client.py:291-325`.) -/
def perform (c : Config) : World → List Binary.Eff → World
  | w, [] => w
  | w, .set _ (.one n) :: es => perform c { w with toDevice := w.toDevice ++ [.set n] } es
  | w, .request :: es => perform c (ask c w) es
  | w, .led col b :: es => perform c { w with shown := some (col, b) } es
  | w, _ :: es => perform c w es

/-- An event at the action, with all its effects. (No code of its own: `step` with `perform`.) -/
def act (c : Config) (w : World) (o : Op) : World :=
  let r := step c w.button o
  perform c { w with button := r.1 } r.2

/-- One event. With a bidirectional protocol (`feedback`), the parameter is registered for ever and each message from the device is
taken, the device reports changes by itself and there is no time limit; otherwise an answer is only taken while a request is
pending (client.py:482-509, `C23`), and giving up a request clears the value (callbacks/__init__.py:51-61, `C24`). -/
def happen (c : Config) (w : World) : Ev → World
  | .push now => act c w (.push now)
  | .release now => act c w (.release now)
  | .update => ask c w
  | .device =>
    match w.toDevice with
    | [] => w
    | .set v :: rest => { w with toDevice := rest, device := v }
    | .ask :: rest => { w with toDevice := rest, fromDevice := w.fromDevice ++ [w.device] }
  | .deliver =>
    match w.fromDevice with
    | [] => w
    | v :: rest =>
      if c.feedback || w.pending then act c { w with fromDevice := rest, pending := false } (.value (some v))
      else { w with fromDevice := rest }
  | .timeout => if w.pending then act c { w with pending := false } (.value none) else w
  | .knob v => { w with device := v, fromDevice := if c.feedback then w.fromDevice ++ [v] else w.fromDevice }
  | .reset => act c w .reset

/-- A history. (No code of its own: a history of `Ev`.) -/
def history (c : Config) : World → List Ev → World
  | w, [] => w
  | w, e :: es => history c (happen c w e) es

/-- The beginning: the switch has been set up, the device has the value `d`. A bidirectional device reports its values at first.
(`controller/inputs.py:52-55`.) -/
def start (c : Config) (holdTime : Int) (disable : Binary.OneOrMany Binary.DVal) (d : Int) : World :=
  { button := initial c holdTime disable, device := d, fromDevice := if c.feedback then [d] else [],
    shown := ledsAfter none (Binary.updateDisplays c.callback (Binary.initial disable)).2 }

end PySwitch.Button
