import Verif.Model.Client
/-
Model of `KemperBidirectionalProtocol` (`content/lib/pyswitch/clients/kemper/__init__.py:586-735`) and of the
way `BidirectionalClient` (`content/lib/pyswitch/controller/client.py:523-585`) uses it.
The time lease is a natural number of seconds (as in all configurations of the repository); debug output is
not modelled. All line numbers without file refer to `clients/kemper/__init__.py`.
-/
namespace PySwitch.Kemper.Protocol
open PySwitch.Wire PySwitch.Mapping

/-- `clients/kemper/__init__.py:289-310` `KemperNRPNExtendedMessage` with the default manufacturer, product type and device ID. -/
def extendedMessage (function : Nat) (controller : List Nat) : Msg :=
  .sysex [0x00, 0x20, 0x33] ([0x02, 0x7f, function, 0x00] ++ controller)

/-- `clients/kemper/__init__.py:526-534` `BIDIRECTIONAL_SENSING`: the response template, manufacturer and data. -/
def senseManufacturer : List Nat := [0x00, 0x20, 0x33]
/-- See `senseManufacturer`. (`clients/kemper/__init__.py:526-535`.) -/
def senseData : List Nat := [0x02, 0x7f, 0x7e, 0x00, 0x7f]

/-- `clients/kemper/__init__.py:591-621`: `running` is `state == _STATE_RUNNING`. -/
structure State where
  lease : Nat
  tunerMode : Bool
  running : Bool
  resend : PeriodCounter
  init : PeriodCounter
  sensing : PeriodCounter
  hasBeenRunning : Bool
  initSent : Bool
deriving Repr, DecidableEq

/-- `clients/kemper/__init__.py:594-621`, the constructor, called at time `now`. `time_lease_seconds * 1000 * 0.5` is exact. -/
def initial (lease : Nat) (tunerMode : Bool) (now : Int) : State :=
  { lease, tunerMode, running := false, resend := ⟨500 * lease, 0⟩, init := ⟨5000, 0⟩, sensing := ⟨1500, now⟩,
    hasBeenRunning := false, initSent := false }

/-- `clients/kemper/__init__.py:719-720` `__encode_time_lease`. -/
def encodeTimeLease (seconds : Nat) : Nat := seconds / 2

/-- `clients/kemper/__init__.py:723-731` `__get_flags`. -/
def getFlags (init sysex echo nofe noctr tunemode : Bool) : Nat :=
  0x00 ||| ((if init then 1 else 0) <<< 0) ||| ((if sysex then 1 else 0) <<< 1) ||| ((if echo then 1 else 0) <<< 2)
    ||| ((if nofe then 1 else 0) <<< 3) ||| ((if noctr then 1 else 0) <<< 4) ||| ((if tunemode then 1 else 0) <<< 5)

/-- `clients/kemper/__init__.py:702-716` `__send_beacon`: the message sent. `_SELECTED_PARAMETER_SET_ID` is 2. -/
def beacon (st : State) (init : Bool) : Msg :=
  extendedMessage 0x7e [0x40, 0x02, getFlags init true false false false st.tunerMode, encodeTimeLease st.lease]

/-- What `update` does to the outside: call `notify_connection_lost` of the client, send a message.
(`clients/kemper/__init__.py:638-661`.) -/
inductive Out where
  | connectionLost
  | send (m : Msg)
deriving Repr, DecidableEq

/-- `clients/kemper/__init__.py:638-661` `update`. -/
def update (st : State) (now : Int) : State × List Out :=
  if !st.running then
    let e := st.init.exceeded now
    if e.1 then
      ({ st with init := e.2, initSent := true },
       (if st.hasBeenRunning then [.connectionLost] else []) ++ [.send (beacon st true)])
    else ({ st with init := e.2 }, [])
  else
    let e := st.sensing.exceeded now
    if e.1 then ({ st with sensing := e.2, running := false }, [])
    else
      let r := st.resend.exceeded now
      if r.1 then ({ st with sensing := e.2, resend := r.2 }, [.send (beacon st false)])
      else ({ st with sensing := e.2, resend := r.2 }, [])

/-- `clients/kemper/__init__.py:664-699` `receive`. The `None` of line 666 counts as false. -/
def receive (st : State) (now : Int) (msg : Msg) : State × Bool :=
  if !st.initSent then (st, false)
  else
    match msg with
    | .sysex manufacturer data =>
      if manufacturer ≠ senseManufacturer then (st, false)
      else if slice data 2 5 ≠ slice senseData 2 5 then (st, false)
      else
        let st := if !st.running
          then { st with resend := st.resend.reset now, hasBeenRunning := true, running := true } else st
        ({ st with sensing := st.sensing.reset now }, true)
    | _ => (st, false)

/-- What happens to the protocol. (`clients/kemper/__init__.py:638-699`.) -/
inductive Event where
  | update
  | receive (m : Msg)
deriving Repr, DecidableEq

/-- One event. (`clients/kemper/__init__.py:638-699`.) -/
def step (st : State) (now : Int) : Event → State × List Out
  | .update => update st now
  | .receive m => ((receive st now m).1, [])

/-- One entry of the observable trace: time, event, public state before, output, public state after.
(No code of its own: an entry of the trace.) -/
structure Entry where
  now : Int
  event : Event
  before : Bool
  outs : List Out
  after : Bool
deriving Repr, DecidableEq

/-- A history of events: the trace and the final state. (No code of its own: a history of `step`.) -/
def run : State → List (Int × Event) → List Entry × State
  | st, [] => ([], st)
  | st, (now, e) :: es =>
    let r := step st now e
    let rest := run r.1 es
    (⟨now, e, st.running, r.2, r.1.running⟩ :: rest.1, rest.2)

/-! ### The client with the protocol -/

/-- `client.py:523-530` -/
structure BiState where
  client : Client.State
  protocol : State

/-- `client.py:578-579` `BidirectionalClient.update`. The order of the calls in lines 645-649 is kept. -/
def biUpdate (P : Client.Protocol) (st : BiState) (now : Int) : BiState × List Client.Eff :=
  let r := update st.protocol now
  let c := r.2.foldl (fun (acc : Client.State × List Client.Eff) o =>
    match o with
    | .connectionLost => let t := Client.connectionLost P acc.1; (t.1, acc.2 ++ t.2)
    | .send m => (acc.1, acc.2 ++ [.send m])) (st.client, [])
  (⟨c.1, r.1⟩, c.2)

/-- `client.py:541-559` `BidirectionalClient.receive`: the protocol gets the messages which the client has not
used. -/
def biReceive (st : BiState) (now : Int) (msg : Option Msg) : Except PyErr (BiState × List Client.Eff × Bool) :=
  match Client.receive st.client now msg with
  | .error e => .error e
  | .ok (c, es, true) => .ok (⟨c, st.protocol⟩, es, false)
  | .ok (c, es, false) =>
    match msg with
    | none => .ok (⟨c, st.protocol⟩, es, false)
    | some m =>
      let r := receive st.protocol now m
      .ok (⟨c, r.1⟩, es, r.2)

/-- The calls the bidirectional client gets. (`client.py:523-585`.) -/
inductive BiOp where
  | register (mid : Nat) (l : Option Nat)
  | request (mid : Nat) (l : Option Nat)
  | set (mid : Nat) (value : SetVal)
  | receive (msg : Option Msg)
  | update
deriving Repr, DecidableEq

/-- One call. (`client.py:523-585`.) -/
def biStep (P : Client.Protocol) (st : BiState) (now : Int) : BiOp → Except PyErr (BiState × List Client.Eff)
  | .register mid l => (Client.registerBi P st.client now mid l).map (fun r => (⟨r.1, st.protocol⟩, r.2))
  | .request mid l => (Client.request st.client now mid l).map (fun r => (⟨r.1, st.protocol⟩, r.2))
  | .set mid v => (Client.setBi P st.client now mid v).map (fun r => (⟨r.1, st.protocol⟩, r.2))
  | .receive msg => (biReceive st now msg).map (fun r => (r.1, r.2.1))
  | .update => .ok (biUpdate P st now)

/-- A history of calls: the effects of each, and the final state. An exception ends it.
(No code of its own: a history of `biStep`.) -/
def biRun (P : Client.Protocol) : BiState → List (Int × BiOp) → Except PyErr (BiState × List (List Client.Eff))
  | st, [] => .ok (st, [])
  | st, (now, op) :: ops =>
    match biStep P st now op with
    | .error e => .error e
    | .ok (st', es) =>
      match biRun P st' ops with
      | .error e => .error e
      | .ok (st'', ess) => .ok (st'', es :: ess)

end PySwitch.Kemper.Protocol
