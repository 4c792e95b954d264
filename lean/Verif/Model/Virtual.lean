import Verif.Model.KemperProtocol

/-!
Model of the bidirectional protocol on the other side, as the virtual Kemper of the configuration
editor implements it (`web/htdocs/clients/kemper/virtual/VirtualKemperProtocol.js`,
`web/htdocs/js/misc/PeriodCounter.js`), and of both sides connected by two MIDI cables.
-/

namespace PySwitch.Kemper.Virtual
open PySwitch.Wire

/-- `VirtualKemperProtocol.js:3-25`: the state, and the option `productType`. -/
structure State where
  productType : Nat
  /-- `state == STATE_CONNECTED` -/
  connected : Bool := false
  parameterSet : Option Nat := none
  /-- `#timeLeaseCounter`, `null` before the first beacon -/
  timeLease : Option PeriodCounter := none
  keepAlive : PeriodCounter
  keepAliveStep : Nat := 0
deriving Repr, DecidableEq

/-- `VirtualKemperProtocol.js:18-25`: the constructor, at the time `now`. The period counters of
`PeriodCounter.js:8-50` are the same as those of PySwitch, except that they start with the current
time. -/
def initial (productType : Nat) (now : Int) : State :=
  { productType, keepAlive := ⟨500, now⟩ }

/-- `VirtualKemperProtocol.js:68-72`: the keep-alive message. -/
def keepAliveBytes (productType cnt : Nat) : List Nat :=
  [240, 0, 32, 51, productType, 127, 126, 0, 127, cnt, 247]

/-- `VirtualKemperProtocol.js:46-63`: `update`, with the messages which are sent. (A connected
protocol always has a lease counter; without, the program would raise an exception.) -/
def update (s : State) (now : Int) : State × List (List Nat) :=
  if s.connected then
    let lease := (s.timeLease.getD ⟨0, 0⟩).exceeded now
    let s := { s with timeLease := some lease.2 }
    let s := if lease.1 then { s with connected := false, keepAliveStep := 0, parameterSet := none } else s
    let alive := s.keepAlive.exceeded now
    if alive.1 then
      ({ s with keepAlive := alive.2,
                keepAliveStep := if s.keepAliveStep + 1 ≥ 128 then 0 else s.keepAliveStep + 1 },
        [keepAliveBytes s.productType s.keepAliveStep])
    else (s, [])
  else (s, [])

/-- `VirtualKemperProtocol.js:78-111`: `parse`. The flag tells if the message has been used. `params`
are the messages for the values of the parameters of a set (`:117-126`), sent for the flag
`flag_init`. Messages which are too short have no flags and no lease (`undefined` in JavaScript,
which would make the lease endless; here it is 0): PySwitch does not send such messages. -/
def parse (params : Nat → List (List Nat)) (s : State) (now : Int) (message : List Nat) :
    State × List (List Nat) × Bool :=
  if message.take 9 ≠ [240, 0, 32, 51, s.productType, 127, 126, 0, 64] then (s, [], false)
  else
    let set := message.getD 9 0
    let flagInit := message.getD 10 0 % 2 = 1
    ({ s with parameterSet := some set,
              timeLease := some ⟨message.getD 11 0 * 2000, now⟩,
              connected := true },
      if flagInit then params set else [], true)

end PySwitch.Kemper.Virtual

namespace PySwitch.Kemper.Closed
open PySwitch.Wire

/-- PySwitch and the device with two cables. A cable holds the messages which have been sent, but not
yet received, each with the time it has been sent at. The last three fields are for the schedule only:
the time, and when both sides have done their last update. (No code of its own: both sides and the cables.) -/
structure Sys where
  py : Protocol.State
  dev : Virtual.State
  toDev : List (Int × List Nat) := []
  toPy : List (Int × List Nat) := []
  now : Int
  lastPy : Int
  lastDev : Int
deriving Repr, DecidableEq

/-- What can happen: both sides do their updates, or take the next message from the cable, or send
something else. The last three are interruptions: the cables are pulled out (messages under way are
lost), the device is switched off and on, or PySwitch is restarted (the clock goes on). (No code of its own: see `Sys`.) -/
inductive Ev where
  | pyUpdate
  | pyReceive
  | pySend (bytes : List Nat)
  | devUpdate
  | devReceive
  | devSend (bytes : List Nat)
  | unplug
  | devRestart
  | pyRestart
deriving Repr, DecidableEq

/-- The bytes of the messages the protocol sends (`content/lib/pyswitch/clients/kemper/__init__.py:638-661`,
MIDI channel 0). -/
def wire (outs : List Protocol.Out) : List (List Nat) :=
  outs.filterMap fun
    | .send m => some (toBytes 0 m)
    | .connectionLost => none

/-- One event at the time `now`. Messages arrive as a whole, in the order in which they have been sent.
Simplification: PySwitch passes all messages to the protocol (the client only takes those which fit to
a mapping). (`VirtualKemperProtocol.js:46-111`, `clients/kemper/__init__.py:638-699`.) -/
def step (params : Nat → List (List Nat)) (s : Sys) (now : Int) : Ev → Sys × List Protocol.Out
  | .pyUpdate =>
    let r := Protocol.update s.py now
    ({ s with py := r.1, toDev := s.toDev ++ (wire r.2).map fun m => (now, m), now := now, lastPy := now }, r.2)
  | .pyReceive =>
    match s.toPy with
    | [] => ({ s with now := now }, [])
    | m :: rest =>
      match (fromMessageBytes [0] m.2).1 with
      | none => ({ s with toPy := rest, now := now }, [])
      | some msg => ({ s with py := (Protocol.receive s.py now msg).1, toPy := rest, now := now }, [])
  | .pySend bytes => ({ s with toDev := s.toDev ++ [(now, bytes)], now := now }, [])
  | .devUpdate =>
    let r := Virtual.update s.dev now
    ({ s with dev := r.1, toPy := s.toPy ++ r.2.map fun m => (now, m), now := now, lastDev := now }, [])
  | .devReceive =>
    match s.toDev with
    | [] => ({ s with now := now }, [])
    | m :: rest =>
      let r := Virtual.parse params s.dev now m.2
      ({ s with dev := r.1, toDev := rest, toPy := s.toPy ++ r.2.1.map fun m => (now, m), now := now }, [])
  | .devSend bytes => ({ s with toPy := s.toPy ++ [(now, bytes)], now := now }, [])
  | .unplug => ({ s with toDev := [], toPy := [], now := now }, [])
  | .devRestart => ({ s with dev := Virtual.initial s.dev.productType now, now := now, lastDev := now }, [])
  | .pyRestart =>
    ({ s with py := Protocol.initial s.py.lease s.py.tunerMode now, now := now, lastPy := now }, [])

/-- A history; the second component are all outputs of the protocol of PySwitch.
(No code of its own: a history of `step`.) -/
def run (params : Nat → List (List Nat)) : Sys → List (Int × Ev) → Sys × List Protocol.Out
  | s, [] => (s, [])
  | s, (now, e) :: es =>
    let r := step params s now e
    let rest := run params r.1 es
    (rest.1, r.2 ++ rest.2)

/-- Both sides are started at the time `now`. (`VirtualKemperProtocol.js:18-25`, `clients/kemper/__init__.py:591-622`.) -/
def start (lease : Nat) (tuner : Bool) (now : Int) : Sys :=
  { py := Protocol.initial lease tuner now, dev := Virtual.initial 2 now,
    now, lastPy := now, lastDev := now }

end PySwitch.Kemper.Closed
