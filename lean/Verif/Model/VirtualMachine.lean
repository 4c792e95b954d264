import Verif.Model.VirtualSetup

/-!
The whole virtual Kemper of the configuration editor: its parameters (`Model/VirtualSetup.lean`) with the tempo, the morphing and
the tuner (`web/htdocs/clients/kemper/virtual/VirtualKemperTempo.js`, `VirtualKemperMorph.js`, `VirtualKemperTuner.js`, and
`VirtualKemperClientSetup.js:107-167`, `VirtualKemperClient.js:97-103`).

All calls of `Date.now()` during one event give the same time. Times do not go backwards between two taps: a negative difference counts
as 0.
-/

namespace PySwitch.Kemper.Machine
open PySwitch.Kemper.Virtual PySwitch.Kemper.Setup

/-- The period of the tempo (`VirtualKemperTempo.js:4`, a `PeriodCounter`): the interval is the fraction `num / den` in milliseconds
(`den` is not 0), where the program has a floating point number. -/
structure Pulse where
  num : Nat
  den : Nat
  lastReset : Int
deriving Repr, DecidableEq

/-- `PeriodCounter.js:34-41`: `exceeded`, without the reset: `lastReset + num / den < now`. -/
def Pulse.over (p : Pulse) (now : Int) : Bool := p.lastReset * p.den + p.num < now * p.den

/-- `VirtualKemperTempo.js:30-34` `bpm` and `VirtualKemperClientSetup.js:125-129`: the value of the parameter for the tempo. `null`
(no tempo) gives 0, an interval of 0 gives `Infinity`, which is more than 256. `Math.round` rounds halves up. -/
def bpmValue : Option Pulse → Nat
  | none => 0
  | some p =>
    if p.num = 0 then 16383
    else
      let bpm := (60000 * p.den + p.num) / (2 * p.num)
      if 256 ≤ bpm then 16383 else bpm * 64

/-- `VirtualKemperTempo.js:39-50`: the period for a tempo in BPM. -/
def pulseOf (bpm : Nat) (now : Int) : Option Pulse := if bpm = 0 then none else some ⟨30000, bpm, now⟩

/-- `VirtualKemperClientSetup.js:122`: the BPM for a value of the parameter. -/
def bpmOf (value : Nat) : Nat := if value = 16383 then 256 else (value + 32) / 64

/-- The device with tempo (`VirtualKemperTempo.js:3-5`), morphing (`VirtualKemperMorph.js:3-9`; the step is fixed, see `fade`) and the
period of the tuner (`VirtualKemperTuner.js:4`). `morphBug` is the option `simulateMorphBug` (`KemperClient.js:54`). -/
structure Machine where
  dev : Device
  pulse : Option Pulse
  lastTap : Option Int := none
  fadeTarget : Option Nat := none
  rigBtnMorph : Bool := true
  morphBug : Bool := true
  tunerPeriod : PeriodCounter
deriving Repr, DecidableEq

/-- `parameters.get(new NRPNKey([4, 0])).setValue(value)` with the callback of the parameter (`VirtualKemperClientSetup.js:121-123`), which
sets the tempo, which sets the parameter again (`VirtualKemperTempo.js:50-54`, `VirtualKemperClientSetup.js:125-129`). `fuel` bounds the depth of these
calls: the second one already finds its value unchanged (`setBpm_fuel` in `Lemmas/VirtualMachine.lean`). -/
def Machine.setBpm : Nat → Machine → Int → Nat → Machine × List (List Nat)
  | 0, m, _, _ => (m, [])
  | fuel + 1, m, now, value =>
    if m.dev.num (.nrpn [4, 0]) = value then (m, [])
    else
      let r := m.dev.ui [] (.value 4 0 (.num value))
      let pulse := pulseOf (bpmOf value) now
      let q := Machine.setBpm fuel { m with dev := r.1, pulse } now (bpmValue pulse)
      (q.1, q.2 ++ r.2)

/-- `VirtualKemperTempo.js:39-55` `set`. -/
def Machine.setTempo (m : Machine) (now : Int) (bpm : Nat) : Machine × List (List Nat) :=
  Machine.setBpm 2 { m with pulse := pulseOf bpm now } now (bpmValue (pulseOf bpm now))

/-- `VirtualKemperTempo.js:60-80` `tap`. -/
def Machine.tap (m : Machine) (now : Int) (value : PVal) : Machine × List (List Nat) :=
  if value ≠ .num 1 then (m, [])
  else
    match m.lastTap with
    | none => ({ m with lastTap := some now }, [])
    | some last =>
      let diff := (now - last).toNat
      let m := { m with lastTap := some now }
      if diff > 3000 then (m, [])
      else
        let pulse := some ⟨diff, 2, now⟩
        Machine.setBpm 2 { m with pulse } now (bpmValue pulse)

/-- `VirtualKemperMorph.js:54-64` `triggerButton`. -/
def Machine.trigger (m : Machine) : Machine :=
  if m.morphBug then m
  else { m with fadeTarget := some (if m.dev.num (.nrpn [0, 11]) > 8191 then 0 else 16383) }

/-- The callbacks which concern the tempo and the morphing, after the parameter `p` has got the value (by the first receive key:
`VirtualKemperClientSetup.js:69-71, 116-123, 161-166`). `before` is the device before. These parameters send nothing themselves, so
the order of messages does not matter. -/
def Machine.after (m : Machine) (before : Device) (now : Int) (p : Param) (value : PVal) : Machine × List (List Nat) :=
  match p.receive.head?, value with
  | some (.cc c _), _ =>
    if c = 30 then m.tap now value
    else if c = 80 then (if value = .num 1 then m.trigger else m, [])
    else if 50 ≤ c ∧ c ≤ 54 ∧ value = .num 1 ∧ m.rigBtnMorph ∧ m.dev.lastRig = before.lastRig then (m.trigger, [])
    else (m, [])
  | some (.nrpn data), .num n => if data = [4, 0] then m.setTempo now (bpmOf n) else (m, [])
  | _, _ => (m, [])

/-- A message arrives (`VirtualKemperClient.js:183-199`). -/
def Machine.receive (m : Machine) (now : Int) (date message : List Nat) : Machine × List (List Nat) :=
  let r := m.dev.receive now date message
  let m' := { m with dev := r.1 }
  if message.take 2 = [176, 47] then (m', r.2)
  else
    match fired m.dev.proto.productType m.dev.params message with
    | none => (m', r.2)
    | some (p, v) =>
      let q := m'.after m.dev now p v
      (q.1, r.2 ++ q.2)

/-- The user interface: the rig and the parameters (see `UiEvent`), the tempo and the option "Rig Btn Morph"
(`VirtualKemperClientUI.js:161-170, 188-199`). -/
inductive Use where
  | dev (e : UiEvent)
  | tempo (bpm : Nat)
  | rigButton (on : Bool)
deriving Repr, DecidableEq

/-- See `Use`. -/
def Machine.use (m : Machine) (now : Int) (date : List Nat) : Use → Machine × List (List Nat)
  | .dev e =>
    let r := m.dev.ui date e
    let m' := { m with dev := r.1 }
    match e with
    | .rig _ => (m', r.2)
    | .value page number v =>
      match m.dev.params.find? fun p => p.send == some (.nrpn [page, number]) with
      | none => (m', r.2)
      | some p =>
        if fires p v then
          let q := m'.after m.dev now p v
          (q.1, r.2 ++ q.2)
        else (m', r.2)
  | .tempo bpm => m.setTempo now bpm
  | .rigButton on => ({ m with rigBtnMorph := on }, [])

/-- `VirtualKemperTempo.js:18-25` `update`. -/
def Machine.beat (m : Machine) (now : Int) : Machine × List (List Nat) :=
  match m.pulse with
  | none => (m, [])
  | some p =>
    if p.over now then
      let r := m.dev.ui [] (.value 124 0 (.num (if m.dev.num (.nrpn [124, 0]) = 0 then 1 else 0)))
      ({ m with dev := r.1, pulse := some { p with lastReset := now } }, r.2)
    else (m, [])

/-- `VirtualKemperTuner.js:14-18` `update`. -/
def Machine.tune (m : Machine) (now : Int) : Machine × List (List Nat) :=
  if m.dev.tunerRunning then
    let e := m.tunerPeriod.exceeded now
    let m := { m with tunerPeriod := e.2 }
    if e.1 then
      let r := m.dev.tuner
      ({ m with dev := r.1 }, r.2)
    else (m, [])
  else (m, [])

/-- `VirtualKemperMorph.js:33-40`: the next value on the way from `state` to `target`. The step is 16384 / 40 = 409.6, and the sum is
rounded, which makes 410. -/
def fade (state target : Nat) : Nat :=
  if target - state ≤ 409 ∧ state - target ≤ 409 then target
  else if target > state then state + 410
  else state - 410

/-- `VirtualKemperMorph.js:26-49` `update`. (`running` does not exist, so 46-48 does nothing.) -/
def Machine.morph (m : Machine) : Machine × List (List Nat) :=
  match m.fadeTarget with
  | none => (m, [])
  | some target =>
    let state := m.dev.num (.nrpn [0, 11])
    if state = target then ({ m with fadeTarget := none }, [])
    else
      let r := m.dev.ui [] (.value 0 11 (.num (fade state target)))
      ({ m with dev := r.1 }, r.2)

/-- `VirtualKemperClient.js:97-103` `update`. -/
def Machine.update (m : Machine) (now : Int) : Machine × List (List Nat) :=
  let r := m.dev.update now
  let t := Machine.beat { m with dev := r.1 } now
  let u := t.1.tune now
  let f := u.1.morph
  (f.1, r.2 ++ t.2 ++ u.2 ++ f.2)

/-- The device after start (`VirtualKemperClient.js:24-50`, `VirtualKemperTempo.js:11-16`, `VirtualKemperTuner.js:8-12`). -/
def initial (morphBug : Bool) (now : Int) (date : List Nat) : Machine :=
  { dev := Setup.initial now date, pulse := some ⟨30000, 120, now⟩, morphBug, tunerPeriod := ⟨20, now⟩ }

/-- What happens to the device. (No code of its own: see `VirtualKemperClient.js:97-103, 183-199` and `Use`.) -/
inductive Ev where
  | receive (now : Int) (date : List Nat) (message : List Nat)
  | update (now : Int)
  | use (now : Int) (date : List Nat) (u : Use)
deriving Repr, DecidableEq

/-- One event: the device and the messages it sends. (No code of its own: see `Ev`.) -/
def Machine.step (m : Machine) : Ev → Machine × List (List Nat)
  | .receive now date message => m.receive now date message
  | .update now => m.update now
  | .use now date u => m.use now date u

/-- A history: the device and all messages sent. (No code of its own: a history of `step`.) -/
def Machine.run : Machine → List Ev → Machine × List (List Nat)
  | m, [] => (m, [])
  | m, e :: es =>
    let r := m.step e
    let rest := r.1.run es
    (rest.1, r.2 ++ rest.2)

end PySwitch.Kemper.Machine
