import Verif.Model.Button
import Verif.Model.Effects
import Verif.Model.Rigs
import Verif.Model.Tuner
/-
The foot switches of the shipped configuration (`content/inputs.py` with `content/display.py` and `content/communication.py`),
put together from the models of their parts: switches with the tuner taking them over (`Model/Switch.lean`, `Model/Tuner.lean`),
effect slots (`Model/PushButton.lean`, `Model/Effects.lean`), tap tempo and tuner mode (`Model/Button.lean`), and the selection of
rigs and banks (`Model/Rigs.lean`). The messages are those of the parameter table (`Model/Table.lean`).

The wheel and what its button does are in `Model/Wheel.lean`; here the button only counts as a switch which leaves the tuner.
No action of this configuration has an `enableCallback`, so all of them are always enabled. Bidirectional parameters (effect
slots and tuner mode) are fed back at once when they are set (`client.py:563-575`).
-/
namespace PySwitch.Shipped
open PySwitch PySwitch.Wire

/-- `inputs.py:8` and `actions/__init__.py:212`: both hold times are the default. -/
def holdTime : Int := 600

/-- `content/inputs.py:37-182`: the switches 1, 2, 3, 4, UP, A, B, C, D, DOWN and the button of the wheel. Actions: 0-3 effect
slots A-D, 4 tap tempo, 5 tempo display, 6 tuner mode, 7 bank down, 8-12 rigs 1-5, 13 bank up, 14 and 15 encoder buttons. -/
def switches : List Switch.Config :=
  [{ actions := [0] }, { actions := [1] }, { actions := [2] }, { actions := [3] },
   { actions := [4, 5], actionsHold := [6] },
   { actions := [8], actionsHold := [7] },
   { actions := [9] }, { actions := [10] }, { actions := [11] },
   { actions := [12], actionsHold := [13] },
   { actions := [14], actionsHold := [15] }]

/-- `actions/__init__.py:220-230`: the action of an effect slot. -/
structure Fx where
  period : PeriodCounter
  cb : Effects.State
deriving Repr, DecidableEq

/-- The state of all actions. `lit` tells for the switches 1 to 4 if the LEDs are bright; `none` means dark.
(`content/inputs.py`.) -/
structure Acts where
  fx : Nat → Fx
  lit : Nat → Option Bool
  tap : Button.State
  tuner : Button.State
  rig : Nat → Rigs.SelState
  bank : Rigs.State
  shared : Rigs.Shared

/-- Everything. (`content/inputs.py`, `content/display.py:96-123`.) -/
structure State where
  ov : Tuner.OverrideState
  acts : Acts

/-- `client.py:291-310`: the message sent for a parameter with a single `set` message. -/
def msg (p : Table.Param) (v : Int) : List Msg :=
  match Mapping.setValue .numeric p.mapping.set (.one v.toNat) with
  | .ok (.one m) => [m]
  | _ => []

/-- The messages for what a callback does. (`callbacks/__init__.py:197-222`.) -/
def msgs (p : Table.Param) : List Binary.Eff → List Msg
  | [] => []
  | .set _ (.one v) :: es => msg p v ++ msgs p es
  | _ :: es => msgs p es

/-! ### Effect slots -/

/-- `content/inputs.py:37-80`: the callback of an effect slot has a label and default settings. -/
def fxConfig : Effects.Config := {}

/-- The part of the effects of an effect slot which comes from `BinaryParameterCallback`. (`effect_enable.py:30-64`.) -/
def bases : List Effects.Eff → List Binary.Eff
  | [] => []
  | .base e :: es => e :: bases es
  | _ :: es => bases es

/-- `actions/__init__.py:242-252`, the setter of `state`, with the value fed back by the client (`client.py:569-575`). -/
def Fx.setState (st : Fx) (s : Bool) : Fx × List Effects.Eff :=
  if s = st.cb.base.state then (st, [])
  else
    let cb := { st.cb with base := { st.cb.base with state := s } }
    let es := Binary.stateChanged (Effects.baseConfig fxConfig cb.category) cb.base
    let r := match Button.firstSet es with
      | some v => Effects.updateDisplays fxConfig { cb with base := { cb.base with value := some v } }
      | none => (cb, [])
    let r' := Effects.updateDisplays fxConfig r.1
    ({ st with cb := r'.1 }, es.map .base ++ r.2 ++ r'.2)

/-- `actions/__init__.py:258-288` `push` in HOLD_MOMENTARY mode. -/
def Fx.push (st : Fx) (now : Int) : Fx × List Effects.Eff :=
  Fx.setState { st with period := st.period.reset now } (!st.cb.base.state)

/-- `actions/__init__.py:291-308` `release` in HOLD_MOMENTARY mode. -/
def Fx.release (st : Fx) (now : Int) : Fx × List Effects.Eff :=
  let e := st.period.exceeded now
  if e.1 then Fx.setState { st with period := e.2 } (!st.cb.base.state) else ({ st with period := e.2 }, [])

/-- Other events of an effect slot (see `Effects.Op`). (`effect_enable.py:30-64`.) -/
def Fx.other (st : Fx) (o : Effects.Op) : Fx × List Effects.Eff :=
  let r := Effects.step fxConfig st.cb o
  ({ st with cb := r.1 }, r.2)

/-- The LEDs after some effects. (`actions/__init__.py:76-118`.) -/
def ledOf : Option Bool → List Binary.Eff → Option Bool
  | s, [] => s
  | _, .led _ b :: es => ledOf (some b) es
  | s, _ :: es => ledOf s es

/-- An effect slot has done something: its state, LEDs and messages. (No code of its own: the results are put together.) -/
def withFx (a : Acts) (slot : Nat) (r : Fx × List Effects.Eff) : Acts × List Msg :=
  ({ a with fx := fun i => if i = slot then r.1 else a.fx i
            lit := fun i => if i = slot then ledOf (a.lit i) (bases r.2) else a.lit i },
   msgs (Table.effectState slot) (bases r.2))

/-! ### Tuner -/

/-- `content/inputs.py:94-97` TUNER_MODE: the parameter is bidirectional. -/
def tunerButton : Button.Config := { Button.tunerMode with feedback := true }

/-- `kemper/__init__.py:236-237`: `reset()` of all actions of a switch (`inputs.py:157-158`, the hold actions as well). Those of
the tempo display, rigs and banks only draw. -/
def resetOne (a : Acts) (k : Nat) : Acts :=
  if k < 4 then (withFx a k ((a.fx k).other .reset)).1
  else if k = 4 then
    { a with tap := (Button.step Button.tapTempo a.tap .reset).1, tuner := (Button.step tunerButton a.tuner .reset).1 }
  else a

/-- The effects of the tuner callback other than calls of actions and `client.set`. (`kemper/__init__.py:236-237`.) -/
def applyResets (a : Acts) : List Tuner.OverrideEff → Acts
  | [] => a
  | .resetActions k :: es => applyResets (resetOne a k) es
  | _ :: es => applyResets a es

/-- `kemper/__init__.py:212-237` `parameter_changed`: the tuner state has been reported or fed back. While it is on, the LEDs are
dark. The action has got the value before (order does not matter: a reset evaluates the value again). -/
def tunerValue (st : State) (v : Int) : State :=
  let r := Tuner.overrideStep switches false st.ov (.tuner v)
  { ov := r.1
    acts := if v = 1 then { st.acts with lit := fun _ => none } else applyResets st.acts r.2 }

/-- The TUNER_MODE action has done something: messages, and the value fed back to the tuner callback (`client.py:569-575`). -/
def withTuner (st : State) (r : Button.State × List Binary.Eff) : State × List Msg :=
  let st' : State := { st with acts := { st.acts with tuner := r.1 } }
  (match Button.firstSet r.2 with
    | some v => tunerValue st' v
    | none => st', msgs Table.tunerMode r.2)

/-! ### All actions -/

/-- `content/inputs.py:112-166`: the actions for the rigs. -/
def rigSelect (slot : Nat) : Rigs.RigSelect := { rig := some (slot + 1) }

/-- `content/inputs.py:105-108`: BANK_DOWN, `bank_up_down.py:48-80`. -/
def bankDown : Rigs.BankChange := { offset := -1, number := 49 }

/-- `content/inputs.py:156-159`: BANK_UP, `bank_up_down.py:15-45`. -/
def bankUp : Rigs.BankChange := { offset := 1, number := 48 }

/-- A control change message as it is sent. (`client.py:291-310`.) -/
def ccMsg (c : Rigs.CC) : Msg := Table.cc c.number.toNat c.value.toNat

/-- `content/inputs.py`: `push()` (`down`) or `release()` of an action. -/
def call (st : State) (now : Int) (action : Nat) (down : Bool) : State × List Msg :=
  if action < 4 then
    let r := withFx st.acts action (if down then (st.acts.fx action).push now else (st.acts.fx action).release now)
    ({ st with acts := r.1 }, r.2)
  else if action = 4 then
    let r := Button.step Button.tapTempo st.acts.tap (if down then .push now else .release now)
    ({ st with acts := { st.acts with tap := r.1 } }, msgs Button.tapTempoParam r.2)
  else if action = 6 then
    withTuner st (Button.step tunerButton st.acts.tuner (if down then .push now else .release now))
  else if action = 7 ∨ action = 13 then
    if down then
      let r := (if action = 7 then bankDown else bankUp).push st.acts.bank st.acts.shared
      ({ st with acts := { st.acts with bank := r.1, shared := r.2.1 } }, r.2.2.map ccMsg)
    else (st, [])
  else if 8 ≤ action ∧ action ≤ 12 then
    let i := action - 8
    let r := if down then (rigSelect i).push (st.acts.rig i) st.acts.shared
      else (rigSelect i).release (st.acts.rig i) st.acts.shared
    ({ st with acts := { st.acts with rig := fun j => if j = i then r.1 else st.acts.rig j, shared := r.2.1 } },
     r.2.2.map ccMsg)
  else (st, [])

/-- What a switch does: calls of actions, and leaving the tuner (`kemper/__init__.py:249`). -/
def perform (now : Int) : State → List Tuner.OverrideEff → State × List Msg
  | st, [] => (st, [])
  | st, .own _ (.push a) :: es =>
    let r := call st now a true
    let rest := perform now r.1 es
    (rest.1, r.2 ++ rest.2)
  | st, .own _ (.release a) :: es =>
    let r := call st now a false
    let rest := perform now r.1 es
    (rest.1, r.2 ++ rest.2)
  | st, .leave :: es =>
    let tuner := (Button.step tunerButton st.acts.tuner (.value (some 0))).1
    let rest := perform now (tunerValue { st with acts := { st.acts with tuner } } 0) es
    (rest.1, msg Table.tunerMode 0 ++ rest.2)
  | st, _ :: es => perform now st es

/-- What happens: a switch is processed, the device reports the state or type of an effect slot, the tuner state or the rig, or
the connection is lost (`client.py:582-585`). -/
inductive Event where
  | process (k : Nat) (pushed : Bool) (now : Int)
  | effectState (slot : Nat) (v : Int)
  | effectType (slot : Nat) (t : Int)
  | tuner (v : Int)
  | rig (v : Int)
  | lost
deriving Repr, DecidableEq

/-- The connection is lost for an effect slot: both values are cleared. (`callbacks/__init__.py:51-61`.) -/
def loseFx (a : Acts) (slot : Nat) : Acts :=
  let a := (withFx a slot ((a.fx slot).other (.fxtype none))).1
  (withFx a slot ((a.fx slot).other (.value none))).1

/-- The connection is lost: the values of all bidirectional parameters are cleared (`callbacks/__init__.py:51-61`,
`client.py:582-585`). The override of the switches stays: nothing is done about it in `request_terminated`. -/
def loseAll (a : Acts) : Acts :=
  let a := loseFx (loseFx (loseFx (loseFx a 0) 1) 2) 3
  { a with tuner := (Button.step tunerButton a.tuner (.value none)).1 }

/-- One event: the new state and the messages written. (`content/inputs.py`; see `Event`.) -/
def step (st : State) : Event → State × List Msg
  | .process k pushed now =>
    let r := Tuner.overrideStep switches false st.ov (.process k { pushed, now })
    perform now { st with ov := r.1 } r.2
  | .effectState slot v =>
    if slot < 4 then ({ st with acts := (withFx st.acts slot ((st.acts.fx slot).other (.value (some v)))).1 }, []) else (st, [])
  | .effectType slot t =>
    if slot < 4 then ({ st with acts := (withFx st.acts slot ((st.acts.fx slot).other (.fxtype (some t)))).1 }, []) else (st, [])
  | .tuner v =>
    let tuner := (Button.step tunerButton st.acts.tuner (.value (some v))).1
    (tunerValue { st with acts := { st.acts with tuner } } v, [])
  | .rig v =>
    ({ st with acts := { st.acts with
        rig := fun i => (rigSelect i).updateDisplays { st.acts.rig i with value := some v }
        bank := { st.acts.bank with value := some v } } }, [])
  | .lost => ({ st with acts := loseAll st.acts }, [])

/-- A history: the messages of each event, and the final state. (No code of its own: a history of `step`.) -/
def run : State → List Event → List (List Msg) × State
  | st, [] => ([], st)
  | st, e :: es =>
    let r := step st e
    let rest := run r.1 es
    (r.2 :: rest.1, rest.2)

/-- `actions/__init__.py:220-230` and `inputs.py:52-55`: an effect slot at the beginning, drawn once. -/
def fxInitial : Fx × List Effects.Eff :=
  let r := Effects.updateDisplays fxConfig Effects.initial
  ({ period := ⟨holdTime, 0⟩, cb := r.1 }, r.2)

/-- The state after start. (`inputs.py:27-68`, `content/inputs.py`.) -/
def initial : State :=
  { ov := { switches := switches.map fun _ => Switch.initial holdTime }
    acts := {
      fx := fun _ => fxInitial.1
      lit := fun _ => ledOf none (bases fxInitial.2)
      tap := Button.initial Button.tapTempo holdTime (.one (.num 0))
      tuner := Button.initial tunerButton holdTime (.one (.num 0))
      rig := fun _ => { rigOff := none, bankOff := none }
      bank := {}
      shared := {} } }

end PySwitch.Shipped
