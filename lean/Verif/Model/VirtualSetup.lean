import Verif.Model.VirtualParams

/-!
The parameters of the virtual Kemper of the configuration editor and what happens when they change
(`web/htdocs/clients/kemper/virtual/VirtualKemperClientSetup.js`, `VirtualKemperClient.js`): selection of rigs and
banks, and the tuner. Line numbers without file refer to `VirtualKemperClientSetup.js`.

What tapping the tempo, the morph button and the BPM do (`VirtualKemperTempo.js`, `VirtualKemperMorph.js`) is in
`Model/VirtualMachine.lean`. They change the parameters "Tempo Pulse", "Tempo (BPM)" and "Morph State", which is an event
(`UiEvent.value`) here.
-/

namespace PySwitch.Kemper.Setup
open PySwitch.Wire PySwitch.Kemper.Virtual

/-- A text as parameter value. (No code of its own: see `PVal`.) -/
def text (s : String) : PVal := .str (s.toList.map Char.toNat)

/-- `parameterSets: [1, 2, 3, 4]` (for example 37, 216). -/
def allSets : List Nat := [1, 2, 3, 4]

/-- An NRPN parameter which is not in any set (193-204, 103, 121, 174-183). -/
def nrpn (page number : Nat) (value : PVal := .num 0) (receive : List Key := []) (sets : List Nat := []) : Param :=
  { send := some (.nrpn [page, number]), receive := keys (some (.nrpn [page, number])) receive, value, sets }

/-- A parameter which is only received (81-100, 116, 161). -/
def control (c : Nat) (noBuffer : Bool := false) : Param :=
  { send := none, receive := keys none [.cc c none], value := .num 0, noBuffer }

/-- `setup` (13-24), in the order of the calls. The bank preselection (49-50) is a field of the device, see `Device`. The date
(103) is the first one which is generated. -/
def table (date : List Nat) : List Param :=
  [ -- 193-204
    nrpn 0 16 (text "Amp Comment"),
    nrpn 60 0 (.num 151), nrpn 60 3 (.num 1) [.cc 26 none, .cc 27 none],
    nrpn 61 0 (.num 180), nrpn 61 3 (.num 1) [.cc 28 none, .cc 29 none],
    -- 214-238
    nrpn 50 0 (.num 8) [] allSets, nrpn 50 3 (.num 1) [.cc 17 none] allSets,
    nrpn 51 0 (.num 13) [] allSets, nrpn 51 3 (.num 1) [.cc 18 none] allSets,
    nrpn 52 0 (.num 38) [] allSets, nrpn 52 3 (.num 0) [.cc 19 none] allSets,
    nrpn 53 0 (.num 50) [] allSets, nrpn 53 3 (.num 1) [.cc 20 none] allSets,
    nrpn 56 0 (.num 115) [] allSets, nrpn 56 3 (.num 1) [.cc 22 none] allSets,
    nrpn 58 0 (.num 104) [] allSets, nrpn 58 3 (.num 1) [.cc 24 none] allSets,
    -- 243-246
    nrpn 0 1 (text "Rig Name") [] [2, 3, 4],
    -- 33-46
    { send := some (.cc 32 none), receive := keys (some (.cc 32 none)) [], value := .num 0, sets := allSets, noBuffer := true },
    { send := some .pc, receive := keys (some .pc) [], value := .num 0, sets := allSets, noBuffer := true },
    -- 81-85, 99-100
    control 50, control 51, control 52, control 53, control 54,
    control 48 true, control 49 true,
    -- 103
    nrpn 0 3 (.str date),
    -- 113-123
    nrpn 124 0 (.num 0) [] allSets, control 30, nrpn 4 0 (.num 7680),
    -- 142-148
    nrpn 127 126 (.num 0) [.cc 31 none] allSets, nrpn 125 84 (.num 0) [] allSets, nrpn 124 15 (.num 8191) [] allSets,
    -- 158-166
    nrpn 0 11 (.num 0) [.cc 11 (some 128)], control 80,
    -- 174-183
    nrpn 5 1, nrpn 5 6, nrpn 5 11, nrpn 5 16, nrpn 5 21, nrpn 5 26, nrpn 5 36, nrpn 5 41 ]

/-- The device. `presel` is the value of the parameter "Bank Presel" (49-50), which may be `null`; it is kept apart because it is
the only one. `lastRig` is `lastRigId` (53), `tunerRunning` is `tuner.running` (`VirtualKemperTuner.js:6`). -/
structure Device where
  proto : State
  params : List Param
  presel : Option Nat := none
  lastRig : Option Nat := none
  tunerRunning : Bool := false
deriving Repr, DecidableEq

/-- `VirtualKemperParameters.js:84-97`: the value of a numeric parameter with this key. (Parameters which do not exist are created
with the value 0.) -/
def Device.num (d : Device) (key : Key) : Nat :=
  match d.params.find? fun p => p.send == some key with
  | some { value := .num n, .. } => n
  | _ => 0

/-- `VirtualKemperClient.js:144-149`: `getRigId`. -/
def Device.rigId (d : Device) : Nat := 128 * d.num (.cc 32 none) + d.num .pc

/-- `get(key).setValue(v)` (`VirtualKemperParameter.js:203-223`) for a parameter which exists and has no callback. -/
def Device.setKey (d : Device) (key : Key) (v : PVal) : Device × List (List Nat) :=
  match d.params.findIdx? fun p => p.send == some key with
  | none => (d, [])
  | some i =>
    match (d.params[i]?).bind fun p => p.setValue d.proto.parameterSet v with
    | none => (d, [])
    | some r => ({ d with params := d.params.set i r.1 }, r.2)

/-- `VirtualKemperClient.js:116-139`: `#generateRigName`. -/
def rigName (rigId : Nat) : String :=
  (["Blue", "Yellow", "Red", "Green", "Purple"][rigId / 5 % 5]?).getD "" ++
    ([" Clean", " Crunch", " Overdrive", " Lead", " Acoustic"][rigId % 5]?).getD ""

/-- `VirtualKemperClient.js:108-111`: `updateRig`. `date` is the result of `generateRigDate` (164-175). -/
def Device.updateRig (d : Device) (date : List Nat) : Device × List (List Nat) :=
  let r := d.setKey (.nrpn [0, 1]) (text (rigName d.rigId))
  let q := r.1.setKey (.nrpn [0, 3]) (.str date)
  (q.1, r.2 ++ q.2)

/-- `VirtualKemperClient.js:154-159`: `setRigId`. -/
def Device.setRigId (d : Device) (rigId : Nat) (date : List Nat) : Device × List (List Nat) :=
  let r := d.setKey (.cc 32 none) (.num (rigId / 128))
  let q := r.1.setKey .pc (.num (rigId % 128))
  let u := q.1.updateRig date
  (u.1, r.2 ++ q.2 ++ u.2)

/-- 55-79 `onRigIdChange`, for the rig `rig` (0 to 4). `morph.triggerButton` (69-71) is in `Model/VirtualMachine.lean`. -/
def Device.onRig (d : Device) (rig : Nat) (value : PVal) (date : List Nat) : Device × List (List Nat) :=
  let bank := d.presel.getD (d.rigId / 5)
  let d := { d with presel := none }
  let rigId := bank * 5 + rig
  if value = .num 1 then
    let r := d.setRigId rigId date
    let q := if d.lastRig ≠ some rigId then r.1.setKey (.nrpn [0, 11]) (.num 0) else (r.1, [])
    ({ q.1 with lastRig := some rigId }, r.2 ++ q.2)
  else (d, [])

/-- 92: the first loop. -/
def raise (r : Int) : Int := if r < 0 then raise (r + 625) else r
termination_by (-r).toNat

/-- 93: the second loop. -/
def lower (r : Int) : Int := if r > 624 then lower (r - 625) else r
termination_by r.toNat

/-- 88-97 `onBankChange`. -/
def Device.onBank (d : Device) (up : Bool) (value : PVal) (date : List Nat) : Device × List (List Nat) :=
  if value = .num 0 then
    d.setRigId (lower (raise ((d.rigId : Int) + if up then 5 else -5))).toNat date
  else (d, [])

/-- The callbacks of the parameters (81-100, 142, 193-196), by the first receive key. -/
def Device.callback (d : Device) (p : Param) (value : PVal) (date : List Nat) : Device × List (List Nat) :=
  match p.receive.head? with
  | some (.cc c _) =>
    if 50 ≤ c ∧ c ≤ 54 then d.onRig (c - 50) value date
    else if c = 48 then d.onBank true value date
    else if c = 49 then d.onBank false value date
    else if c = 31 then ({ d with tunerRunning := value = .num 1 }, [])
    else (d, [])
  | some (.nrpn data) => if data = [0, 16] then d.updateRig date else (d, [])
  | _ => (d, [])

/-- `VirtualKemperParameter.js:203-216`: are the callbacks of the parameter called when it is set to the value? -/
def fires (p : Param) (value : PVal) : Bool :=
  (p.noBuffer || p.value != value) && match p.value, value with
    | .num _, .num _ => true
    | .str _, .str _ => true
    | _, _ => false

/-- The parameter which is set by a message, with the value, if its callbacks are called. (`VirtualKemperParameters.js:46-55`,
`VirtualKemperParameter.js:118-216`; the message is none of the protocol.) -/
def fired (productType : Nat) (ps : List Param) (message : List Nat) : Option (Param × PVal) :=
  match ps.find? fun p => (p.hit productType message).isSome with
  | none => none
  | some p =>
    match p.hit productType message with
    | some (.set v) => if fires p v then some (p, v) else none
    | _ => none

/-- `VirtualKemperClient.js:183-199` `doSend`: a message arrives at the device. The messages of the callbacks are before those of the
parameter itself (`VirtualKemperParameter.js:213-222`). -/
def Device.receive (d : Device) (now : Int) (date : List Nat) (message : List Nat) : Device × List (List Nat) :=
  if message.take 2 = [176, 47] then ({ d with presel := some (message.getD 2 0) }, [])
  else
    let r := Virtual.receive d.proto d.params now message
    let d' := { d with proto := r.1, params := r.2.1 }
    match fired d.proto.productType d.params message with
    | none => (d', r.2.2)
    | some (p, v) =>
      let q := d'.callback p v date
      (q.1, q.2 ++ r.2.2)

/-- What is done with the user interface of the device: the rig is chosen, or a parameter which is sent by NRPN gets a value
(`VirtualKemperClientUI.js:61, 76, 149, 180, 209, 296, 372, 388, 403, 447-450`). The latter is also what the tempo and the morphing do. -/
inductive UiEvent where
  | rig (rigId : Nat)
  | value (page number : Nat) (v : PVal)
deriving Repr, DecidableEq

/-- See `UiEvent`; with the callbacks. (`VirtualKemperParameter.js:203-223`.) -/
def Device.ui (d : Device) (date : List Nat) : UiEvent → Device × List (List Nat)
  | .rig rigId => d.setRigId rigId date
  | .value page number v =>
    match d.params.find? fun p => p.send == some (.nrpn [page, number]) with
    | none => (d, [])
    | some p =>
      let r := d.setKey (.nrpn [page, number]) v
      if fires p v then
        let q := r.1.callback p v date
        (q.1, q.2 ++ r.2)
      else r

/-- `VirtualKemperClient.js:98`: the first part of `update`. -/
def Device.update (d : Device) (now : Int) : Device × List (List Nat) :=
  let r := Virtual.update d.proto now
  ({ d with proto := r.1 }, r.2)

/-- `VirtualKemperTuner.js:14-26`: the values of the tuner, while it is on. (When this is done is in `Model/VirtualMachine.lean`.) -/
def Device.tuner (d : Device) : Device × List (List Nat) :=
  let send (page number : Nat) : List (List Nat) := sendOf d.params (.nrpn [page, number])
  (d, if d.tunerRunning then send 125 84 ++ send 124 15 else [])

/-- The device after start (`VirtualKemperClient.js:24-50`), product type 2 (`KemperClient.js:48-58`). -/
def initial (now : Int) (date : List Nat) : Device :=
  (Device.updateRig { proto := Virtual.initial 2 now, params := table date } date).1

/-- What happens to the device: a message arrives, it is updated, the values of the tuner are sent, or its user interface is used.
(No code of its own: see `VirtualKemperClient.js:97-103, 183-199` and `UiEvent`.) -/
inductive Ev where
  | receive (now : Int) (date : List Nat) (message : List Nat)
  | update (now : Int)
  | tuner
  | ui (date : List Nat) (e : UiEvent)
deriving Repr, DecidableEq

/-- One event: the device and the messages it sends. (No code of its own: see `Ev`.) -/
def Device.step (d : Device) : Ev → Device × List (List Nat)
  | .receive now date message => d.receive now date message
  | .update now => d.update now
  | .tuner => d.tuner
  | .ui date e => d.ui date e

/-- A history: the device and all messages sent. (No code of its own: a history of `step`.) -/
def Device.run : Device → List Ev → Device × List (List Nat)
  | d, [] => (d, [])
  | d, e :: es =>
    let r := d.step e
    let rest := r.1.run es
    (rest.1, r.2 ++ rest.2)

end PySwitch.Kemper.Setup
