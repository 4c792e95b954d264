import Verif.Spec.Virtual
import Verif.Lemmas.KemperProtocol
import Verif.Props.Wire

namespace PySwitch.Kemper.Closed
open PySwitch.Wire PySwitch.Kemper.Closed.Spec PySwitch.Kemper.Protocol.Spec

/-! ### Messages -/

theorem wire_beacon (i t : Bool) (l : Nat) :
    toBytes 0 (beaconMsg i t l) = [240, 0, 32, 51, 2, 127, 126, 0, 64, 2,
      (if i then 1 else 0) + 2 + (if t then 32 else 0), l / 2, 247] := by
  simp [toBytes, beaconMsg]

theorem beacon_wire (i t : Bool) (l : Nat) : Beacon (toBytes 0 (beaconMsg i t l)) := by
  simp [wire_beacon, Beacon]

theorem lease_wire (i t : Bool) (l : Nat) : (toBytes 0 (beaconMsg i t l)).getD 11 0 = l / 2 := by
  simp [wire_beacon]

theorem keepAlive_sensing (cnt : Nat) (h : cnt < 128) : Sensing (Virtual.keepAliveBytes 2 cnt) := by
  have hv : Wire.Spec.Valid (.sysex [0, 32, 51] [2, 127, 126, 0, 127, cnt]) := by
    simp [Wire.Spec.Valid, Wire.Spec.Data7, h]
  have := Props.C04_round_trip [0] 0 (.sysex [0, 32, 51] [2, 127, 126, 0, 127, cnt]) [] hv
    (by simp [Msg.channel]) (by simp)
  refine ⟨.sysex [0, 32, 51] [2, 127, 126, 0, 127, cnt], ?_, rfl⟩
  simp only [List.append_nil] at this
  have e : toBytes 0 (.sysex [0, 32, 51] [2, 127, 126, 0, 127, cnt]) = Virtual.keepAliveBytes 2 cnt := by
    simp [toBytes, Virtual.keepAliveBytes]
  rw [← e, this]

/-! ### What both sides do -/

/-- The lease of the device in milliseconds. -/
def granted (lease : Nat) : Int := 2000 * ((lease / 2 : Nat) : Int)

theorem parse_beacon (params) (d : Virtual.State) (now : Int) (b : List Nat) (lease : Nat)
    (hp : d.productType = 2) (hb : Beacon b) (hl : b.getD 11 0 = lease / 2) :
    ∃ set, Virtual.parse params d now b =
      ({ d with parameterSet := some set, timeLease := some ⟨granted lease, now⟩, connected := true },
        if b.getD 10 0 % 2 = 1 then params set else [], true) := by
  refine ⟨b.getD 9 0, ?_⟩
  simp only [Beacon] at hb
  simp only [Virtual.parse, hp, hb, ne_eq, not_true_eq_false, if_false, hl, granted]
  congr 3
  grind

theorem parse_other (params) (d : Virtual.State) (now : Int) (b : List Nat)
    (hp : d.productType = 2) (hb : ¬Beacon b) : Virtual.parse params d now b = (d, [], false) := by
  simp only [Beacon] at hb
  simp [Virtual.parse, hp, hb]

/-- The device does an update before its lease has ended. -/
theorem update_connected (d : Virtual.State) (now L r : Int) (hc : d.connected = true)
    (hl : d.timeLease = some ⟨L, r⟩) (ht : now ≤ r + L) :
    (d.keepAlive.lastReset + d.keepAlive.interval < now ∧
      Virtual.update d now = ({ d with
        keepAlive := { d.keepAlive with lastReset := now }
        keepAliveStep := if d.keepAliveStep + 1 ≥ 128 then 0 else d.keepAliveStep + 1 },
        [Virtual.keepAliveBytes d.productType d.keepAliveStep])) ∨
    (¬ d.keepAlive.lastReset + d.keepAlive.interval < now ∧ Virtual.update d now = (d, [])) := by
  rcases d with ⟨pt, c, ps, tl, ka, kstep⟩
  simp only at hc hl
  subst hc hl
  have hn : ¬ (r + L < now) := by omega
  simp only [Virtual.update, PeriodCounter.exceeded, Option.getD_some, hn, if_true, if_false]
  by_cases h : ka.lastReset + ka.interval < now
  · simp [h]
  · simp [h]

theorem update_offline (d : Virtual.State) (now : Int) (hc : d.connected = false) :
    Virtual.update d now = (d, []) := by
  simp [Virtual.update, hc]

/-- PySwitch takes a message from the cable. -/
theorem py_receive (s : Protocol.State) (now : Int) (b : List Nat) :
    (s.initSent = true ∧ Sensing b ∧ ∃ m, (fromMessageBytes [0] b).1 = some m ∧
      (Protocol.receive s now m).1 = { s with
          resend := if s.running then s.resend else s.resend.reset now
          hasBeenRunning := s.hasBeenRunning || !s.running
          running := true
          sensing := s.sensing.reset now }) ∨
    (¬ (s.initSent = true ∧ Sensing b) ∧
      ∀ m, (fromMessageBytes [0] b).1 = some m → (Protocol.receive s now m).1 = s) := by
  cases hm : (fromMessageBytes [0] b).1 with
  | none => right; exact ⟨fun h => by obtain ⟨m, h1, _⟩ := h.2; simp [hm] at h1, by simp⟩
  | some m =>
    rcases Protocol.receive_spec s now m with ⟨h1, h2, h3⟩ | ⟨h1, h2⟩
    · left; exact ⟨h1, ⟨m, hm, h2⟩, m, rfl, by rw [h3]⟩
    · right
      refine ⟨fun h => ?_, fun m' hm' => ?_⟩
      · obtain ⟨m', h3, h4⟩ := h.2
        rw [hm] at h3; cases h3
        exact h1 ⟨h.1, h4⟩
      · cases hm'; rw [h2]

/-! ### The invariant -/

/-- What holds at all times. -/
structure Base (lease : Nat) (s : Sys) : Prop where
  py : s.lastPy ≤ s.now
  dev : s.lastDev ≤ s.now
  toDev : ∀ m ∈ s.toDev, m.1 ≤ s.now
  toPy : ∀ m ∈ s.toPy, m.1 ≤ s.now
  beacons : ∀ m ∈ s.toDev, Beacon m.2 → m.2.getD 11 0 = lease / 2
  leased : s.py.lease = lease
  resend : s.py.resend.interval = 500 * lease
  init : s.py.init.interval = 5000
  sensing : s.py.sensing.interval = 1500
  product : s.dev.productType = 2
  alive : s.dev.keepAlive.interval = 500
  cnt : s.dev.keepAliveStep < 128
  kept : s.dev.keepAlive.lastReset ≤ s.now

/-- A schedule and what follows for the next event. -/
structure Next (gap delay : Int) (s : Sys) (t : Int) (e : Ev) : Prop where
  mono : s.now ≤ t
  py : t ≤ s.lastPy + gap
  dev : t ≤ s.lastDev + gap
  toDev : ∀ m ∈ s.toDev, t ≤ m.1 + delay
  toPy : ∀ m ∈ s.toPy, t ≤ m.1 + delay
  regular : Regular e

/-- Before the first beacon. -/
structure PhaseA (t0 : Int) (s : Sys) : Prop where
  initSent : s.py.initSent = false
  running : s.py.running = false
  been : s.py.hasBeenRunning = false
  last : s.py.init.lastReset = 0
  connected : s.dev.connected = false
  noBeacon : ∀ m ∈ s.toDev, ¬Beacon m.2
  noSense : ∀ m ∈ s.toPy, ¬Sensing m.2
  time : s.lastPy ≤ max t0 5000

/-- The first beacon is under way. -/
structure PhaseB (t0 gap : Int) (s : Sys) : Prop where
  initSent : s.py.initSent = true
  running : s.py.running = false
  been : s.py.hasBeenRunning = false
  time : s.py.init.lastReset ≤ max t0 5000 + gap
  connected : s.dev.connected = false
  beacon : ∃ m ∈ s.toDev, Beacon m.2 ∧ m.1 = s.py.init.lastReset
  noSense : ∀ m ∈ s.toPy, ¬Sensing m.2

/-- The device is connected, PySwitch does not know yet. -/
structure PhaseC (lease : Nat) (t0 gap delay r0 r : Int) (s : Sys) : Prop where
  initSent : s.py.initSent = true
  running : s.py.running = false
  been : s.py.hasBeenRunning = false
  time : s.py.init.lastReset ≤ max t0 5000 + gap
  first : r0 ≤ s.py.init.lastReset + delay
  le : r0 ≤ r
  past : r ≤ s.now
  connected : s.dev.connected = true
  until_ : s.dev.timeLease = some ⟨granted lease, r⟩
  alive : ((∀ m ∈ s.toPy, ¬Sensing m.2) ∧ s.dev.keepAlive.lastReset ≤ r0 ∧ s.lastDev ≤ r0 + 500) ∨
    ((∃ m ∈ s.toPy, Sensing m.2 ∧ m.1 ≤ r0 + 500 + gap) ∧
      s.lastDev ≤ s.dev.keepAlive.lastReset + 500)

/-- Connected. -/
structure PhaseD (lease : Nat) (gap delay r : Int) (s : Sys) : Prop where
  initSent : s.py.initSent = true
  running : s.py.running = true
  past : r ≤ s.now
  connected : s.dev.connected = true
  until_ : s.dev.timeLease = some ⟨granted lease, r⟩
  resent : s.py.resend.lastReset ≤ s.now
  sensed : s.py.sensing.lastReset ≤ s.now
  dev : s.lastDev ≤ s.dev.keepAlive.lastReset + 500
  py : s.lastPy ≤ s.py.resend.lastReset + 500 * lease
  beacon : ((∀ m ∈ s.toDev, ¬Beacon m.2) ∧ s.py.resend.lastReset ≤ r + 500 + gap + delay) ∨
    ∃ m ∈ s.toDev, Beacon m.2 ∧ m.1 ≤ r + 500 + 2 * gap + delay + 500 * lease
  sense : ((∀ m ∈ s.toPy, ¬Sensing m.2) ∧ s.dev.keepAlive.lastReset ≤ s.py.sensing.lastReset) ∨
    ∃ m ∈ s.toPy, Sensing m.2 ∧ m.1 ≤ s.py.sensing.lastReset + 500 + gap

/-- The times fit together. -/
structure Fits (lease : Nat) (gap delay : Int) : Prop where
  gap0 : 0 ≤ gap
  delay0 : 0 ≤ delay
  sense : 500 + gap + delay ≤ 1500
  fits : 500 + 2 * gap + 2 * delay + 500 * lease ≤ granted lease

section
variable {params : Nat → List (List Nat)} {lease : Nat} {t0 gap delay : Int} {s : Sys} {t : Int} {e : Ev}

theorem stepA (hb : Base lease s) (h : PhaseA t0 s) (hf : Fits lease gap delay) (hn : Next gap delay s t e) :
    Base lease (step params s t e).1 ∧
      (PhaseA t0 (step params s t e).1 ∨ PhaseB t0 gap (step params s t e).1) ∧
      .connectionLost ∉ (step params s t e).2 := by
  obtain ⟨b1, b2, b3, b4, b5, b6, b7, b8, b9, b10, b11, b12, b13⟩ := hb
  obtain ⟨a1, a2, a3, a4, a5, a6, a7, a8⟩ := h
  obtain ⟨n1, n2, n3, n4, n5, n6⟩ := hn
  have f1 := hf.gap0
  have w1 : ∀ m ∈ s.toDev, m.1 ≤ t := fun m hm => by have := b3 m hm; omega
  have w2 : ∀ m ∈ s.toPy, m.1 ≤ t := fun m hm => by have := b4 m hm; omega
  cases e with
  | pyUpdate =>
    simp only [step]
    rcases Protocol.update_spec s.py t with ⟨h1, h2, h3⟩ | ⟨h1, h2, h3⟩ | ⟨h1, -⟩ | ⟨h1, -⟩ | ⟨h1, -⟩
    · rw [h3]
      simp only [a3, wire, b6]
      refine ⟨?_, .inr ?_, by simp⟩
      · constructor <;> (try simp [-List.getD_eq_getElem?_getD]) <;> first | omega | grind [beacon_wire, lease_wire]
      · constructor <;> simp <;> first | assumption | grind [beacon_wire]
    · rw [h3]
      simp only [wire]
      refine ⟨?_, .inl ?_, by simp⟩
      · constructor <;> simp <;> first | omega | grind
      · constructor <;> simp <;> first | assumption | grind
    all_goals simp [a2] at h1
  | pyReceive =>
    simp only [step]
    cases hq : s.toPy with
    | nil =>
      refine ⟨?_, .inl ?_, by simp⟩
      · constructor <;> simp <;> first | omega | grind
      · constructor <;> simp <;> first | assumption | grind
    | cons m rest =>
      have hm := a7 m (by simp [hq])
      have hpy : ∀ x, (fromMessageBytes [0] m.2).1 = some x → (Protocol.receive s.py t x).1 = s.py := by
        rcases py_receive s.py t m.2 with ⟨_, h2, _⟩ | ⟨_, h2⟩
        · exact absurd h2 hm
        · exact h2
      simp only
      cases hx : (fromMessageBytes [0] m.2).1 with
      | none =>
        refine ⟨?_, .inl ?_, by simp⟩
        · constructor <;> simp <;> first | omega | grind
        · constructor <;> simp <;> first | assumption | grind
      | some x =>
        simp only [hpy x hx]
        refine ⟨?_, .inl ?_, by simp⟩
        · constructor <;> simp <;> first | omega | grind
        · constructor <;> simp <;> first | assumption | grind
  | pySend bytes =>
    simp only [Regular] at n6
    simp only [step]
    refine ⟨?_, .inl ?_, by simp⟩
    · constructor <;> simp <;> first | omega | grind
    · constructor <;> simp <;> first | assumption | grind
  | devUpdate =>
    simp only [step, update_offline _ _ a5]
    refine ⟨?_, .inl ?_, by simp⟩
    · constructor <;> simp <;> first | omega | grind
    · constructor <;> simp <;> first | assumption | grind
  | devReceive =>
    simp only [step]
    cases hq : s.toDev with
    | nil =>
      refine ⟨?_, .inl ?_, by simp⟩
      · constructor <;> simp <;> first | omega | grind
      · constructor <;> simp <;> first | assumption | grind
    | cons m rest =>
      simp only [parse_other params s.dev t m.2 b10 (a6 m (by simp [hq]))]
      refine ⟨?_, .inl ?_, by simp⟩
      · constructor <;> simp <;> first | omega | grind
      · constructor <;> simp <;> first | assumption | grind
  | devSend bytes =>
    simp only [Regular] at n6
    simp only [step]
    refine ⟨?_, .inl ?_, by simp⟩
    · constructor <;> simp <;> first | omega | grind
    · constructor <;> simp <;> first | assumption | grind
  | unplug => exact absurd n6 (by simp [Regular])
  | devRestart => exact absurd n6 (by simp [Regular])
  | pyRestart => exact absurd n6 (by simp [Regular])


theorem stepB (hpar : ∀ set, ∀ b ∈ params set, ¬Sensing b) (hb : Base lease s) (h : PhaseB t0 gap s)
    (hf : Fits lease gap delay) (hn : Next gap delay s t e) :
    Base lease (step params s t e).1 ∧
      (PhaseB t0 gap (step params s t e).1 ∨ ∃ r, PhaseC lease t0 gap delay r r (step params s t e).1) ∧
      .connectionLost ∉ (step params s t e).2 := by
  obtain ⟨b1, b2, b3, b4, b5, b6, b7, b8, b9, b10, b11, b12, b13⟩ := hb
  obtain ⟨a1, a2, a3, a4, a5, ⟨m0, a6, a7, a8⟩, a9⟩ := h
  obtain ⟨n1, n2, n3, n4, n5, n6⟩ := hn
  obtain ⟨f1, f2, f3, f4⟩ := hf
  have w1 : ∀ m ∈ s.toDev, m.1 ≤ t := fun m hm => by have := b3 m hm; omega
  have w2 : ∀ m ∈ s.toPy, m.1 ≤ t := fun m hm => by have := b4 m hm; omega
  have w3 := n4 m0 a6
  have w4 : ∃ m ∈ s.toDev, Beacon m.2 ∧ m.1 = s.py.init.lastReset := ⟨m0, a6, a7, a8⟩
  cases e with
  | pyUpdate =>
    simp only [step]
    rcases Protocol.update_spec s.py t with ⟨h1, h2, h3⟩ | ⟨h1, h2, h3⟩ | ⟨h1, -⟩ | ⟨h1, -⟩ | ⟨h1, -⟩
    · omega
    · rw [h3]
      simp only [wire]
      refine ⟨?_, .inl ?_, by simp⟩
      · constructor <;> (try simp [-List.getD_eq_getElem?_getD]) <;>
          first | omega | assumption | grind [beacon_wire, lease_wire]
      · constructor <;> (try simp [-List.getD_eq_getElem?_getD]) <;>
          first | omega | assumption | grind [beacon_wire, lease_wire]
    all_goals simp [a2] at h1
  | pyReceive =>
    simp only [step]
    cases hq : s.toPy with
    | nil =>
      refine ⟨?_, .inl ?_, by simp⟩
      · constructor <;> (try simp [-List.getD_eq_getElem?_getD]) <;>
          first | omega | assumption | grind [beacon_wire, lease_wire]
      · constructor <;> (try simp [-List.getD_eq_getElem?_getD]) <;>
          first | omega | assumption | grind [beacon_wire, lease_wire]
    | cons m rest =>
      have hm := a9 m (by simp [hq])
      have hpy : ∀ x, (fromMessageBytes [0] m.2).1 = some x → (Protocol.receive s.py t x).1 = s.py := by
        rcases py_receive s.py t m.2 with ⟨_, h2, _⟩ | ⟨_, h2⟩
        · exact absurd h2 hm
        · exact h2
      simp only
      cases hx : (fromMessageBytes [0] m.2).1 with
      | none =>
        refine ⟨?_, .inl ?_, by simp⟩
        · constructor <;> (try simp [-List.getD_eq_getElem?_getD]) <;>
            first | omega | assumption | grind [beacon_wire, lease_wire]
        · constructor <;> (try simp [-List.getD_eq_getElem?_getD]) <;>
            first | omega | assumption | grind [beacon_wire, lease_wire]
      | some x =>
        simp only [hpy x hx]
        refine ⟨?_, .inl ?_, by simp⟩
        · constructor <;> (try simp [-List.getD_eq_getElem?_getD]) <;>
            first | omega | assumption | grind [beacon_wire, lease_wire]
        · constructor <;> (try simp [-List.getD_eq_getElem?_getD]) <;>
            first | omega | assumption | grind [beacon_wire, lease_wire]
  | pySend bytes =>
    simp only [Regular] at n6
    simp only [step]
    refine ⟨?_, .inl ?_, by simp⟩
    · constructor <;> (try simp [-List.getD_eq_getElem?_getD]) <;>
        first | omega | assumption | grind [beacon_wire, lease_wire]
    · constructor <;> (try simp [-List.getD_eq_getElem?_getD]) <;>
        first | omega | assumption | grind [beacon_wire, lease_wire]
  | devUpdate =>
    simp only [step, update_offline _ _ a5]
    refine ⟨?_, .inl ?_, by simp⟩
    · constructor <;> (try simp [-List.getD_eq_getElem?_getD]) <;>
        first | omega | assumption | grind [beacon_wire, lease_wire]
    · constructor <;> (try simp [-List.getD_eq_getElem?_getD]) <;>
        first | omega | assumption | grind [beacon_wire, lease_wire]
  | devReceive =>
    simp only [step]
    cases hq : s.toDev with
    | nil => simp [hq] at a6
    | cons m rest =>
      by_cases hm : Beacon m.2
      · obtain ⟨set, hset⟩ := parse_beacon params s.dev t m.2 lease b10 hm (b5 m (by simp [hq]) hm)
        have hs := hpar set
        have hs2 : ∀ b ∈ (if m.2.getD 10 0 % 2 = 1 then params set else []), ¬Sensing b := by
          intro b hb; split at hb <;> simp_all
        simp only [hset]
        generalize (if m.2.getD 10 0 % 2 = 1 then params set else []) = out at hs2 ⊢
        refine ⟨?_, .inr ⟨t, ?_⟩, by simp⟩
        · constructor <;> (try simp [-List.getD_eq_getElem?_getD]) <;>
            first | omega | assumption | grind [beacon_wire, lease_wire]
        · constructor <;> (try simp [-List.getD_eq_getElem?_getD]) <;>
            first | omega | assumption | grind [beacon_wire, lease_wire]
      · simp only [parse_other params s.dev t m.2 b10 hm]
        refine ⟨?_, .inl ?_, by simp⟩
        · constructor <;> (try simp [-List.getD_eq_getElem?_getD]) <;>
            first | omega | assumption | grind [beacon_wire, lease_wire]
        · constructor <;> (try simp [-List.getD_eq_getElem?_getD]) <;>
            first | omega | assumption | grind [beacon_wire, lease_wire]
  | devSend bytes =>
    simp only [Regular] at n6
    simp only [step]
    refine ⟨?_, .inl ?_, by simp⟩
    · constructor <;> (try simp [-List.getD_eq_getElem?_getD]) <;>
        first | omega | assumption | grind [beacon_wire, lease_wire]
    · constructor <;> (try simp [-List.getD_eq_getElem?_getD]) <;>
        first | omega | assumption | grind [beacon_wire, lease_wire]
  | unplug => exact absurd n6 (by simp [Regular])
  | devRestart => exact absurd n6 (by simp [Regular])
  | pyRestart => exact absurd n6 (by simp [Regular])

theorem stepC (hpar : ∀ set, ∀ b ∈ params set, ¬Sensing b) {r0 r : Int} (hb : Base lease s)
    (h : PhaseC lease t0 gap delay r0 r s) (hf : Fits lease gap delay) (hn : Next gap delay s t e) :
    Base lease (step params s t e).1 ∧
      ((∃ r', PhaseC lease t0 gap delay r0 r' (step params s t e).1) ∨
        ∃ r', PhaseD lease gap delay r' (step params s t e).1) ∧
      .connectionLost ∉ (step params s t e).2 := by
  obtain ⟨b1, b2, b3, b4, b5, b6, b7, b8, b9, b10, b11, b12, b13⟩ := hb
  obtain ⟨a1, a2, a3, a4, a5, a6, a7, a8, a9, a10⟩ := h
  obtain ⟨n1, n2, n3, n4, n5, n6⟩ := hn
  obtain ⟨f1, f2, f3, f4⟩ := hf
  have w1 : ∀ m ∈ s.toDev, m.1 ≤ t := fun m hm => by have := b3 m hm; omega
  have w2 : ∀ m ∈ s.toPy, m.1 ≤ t := fun m hm => by have := b4 m hm; omega
  have w3 : t ≤ r0 + 500 + gap + delay := by
    rcases a10 with ⟨-, -, h⟩ | ⟨⟨m, h1, -, h2⟩, -⟩
    · omega
    · have := n5 m h1; omega
  cases e with
  | pyUpdate =>
    simp only [step]
    rcases Protocol.update_spec s.py t with ⟨h1, h2, h3⟩ | ⟨h1, h2, h3⟩ | ⟨h1, -⟩ | ⟨h1, -⟩ | ⟨h1, -⟩
    · omega
    · rw [h3]
      simp only [wire]
      refine ⟨?_, .inl ⟨r, ?_⟩, by simp⟩
      · constructor <;> (try simp [-List.getD_eq_getElem?_getD]) <;>
          first | omega | assumption | grind [beacon_wire, lease_wire]
      · constructor <;> (try simp [-List.getD_eq_getElem?_getD]) <;>
          first | omega | assumption | grind [beacon_wire, lease_wire]
    all_goals simp [a2] at h1
  | pyReceive =>
    simp only [step]
    cases hq : s.toPy with
    | nil =>
      refine ⟨?_, .inl ⟨r, ?_⟩, by simp⟩
      · constructor <;> (try simp [-List.getD_eq_getElem?_getD]) <;>
          first | omega | assumption | grind [beacon_wire, lease_wire]
      · constructor <;> (try simp [-List.getD_eq_getElem?_getD]) <;>
          first | omega | assumption | grind [beacon_wire, lease_wire]
    | cons m rest =>
      simp only
      rcases py_receive s.py t m.2 with ⟨h1, h2, x, h3, h4⟩ | ⟨h1, h2⟩
      · simp only [h3, h4, a2]
        refine ⟨?_, .inr ⟨r, ?_⟩, by simp⟩
        · constructor <;> (try simp [-List.getD_eq_getElem?_getD, PeriodCounter.reset]) <;> first | omega | assumption | grind
        · constructor <;> (try simp [-List.getD_eq_getElem?_getD, PeriodCounter.reset]) <;> first | omega | assumption | grind
      · cases hx : (fromMessageBytes [0] m.2).1 with
        | none =>
          refine ⟨?_, .inl ⟨r, ?_⟩, by simp⟩
          · constructor <;> (try simp [-List.getD_eq_getElem?_getD]) <;>
              first | omega | assumption | grind [beacon_wire, lease_wire]
          · constructor <;> (try simp [-List.getD_eq_getElem?_getD]) <;>
              first | omega | assumption | grind [beacon_wire, lease_wire]
        | some x =>
          simp only [h2 x hx]
          refine ⟨?_, .inl ⟨r, ?_⟩, by simp⟩
          · constructor <;> (try simp [-List.getD_eq_getElem?_getD]) <;>
              first | omega | assumption | grind [beacon_wire, lease_wire]
          · constructor <;> (try simp [-List.getD_eq_getElem?_getD]) <;>
              first | omega | assumption | grind [beacon_wire, lease_wire]
  | pySend bytes =>
    simp only [Regular] at n6
    simp only [step]
    refine ⟨?_, .inl ⟨r, ?_⟩, by simp⟩
    · constructor <;> (try simp [-List.getD_eq_getElem?_getD]) <;>
        first | omega | assumption | grind [beacon_wire, lease_wire]
    · constructor <;> (try simp [-List.getD_eq_getElem?_getD]) <;>
        first | omega | assumption | grind [beacon_wire, lease_wire]
  | devUpdate =>
    simp only [step]
    rcases update_connected s.dev t _ _ a8 a9 (by omega) with ⟨h1, h2⟩ | ⟨h1, h2⟩
    · simp only [h2, b10]
      have hk := keepAlive_sensing _ b12
      refine ⟨?_, .inl ⟨r, ?_⟩, by simp⟩
      · constructor <;> (try simp [-List.getD_eq_getElem?_getD]) <;>
          first | omega | assumption | grind [beacon_wire, lease_wire]
      · constructor <;> (try simp [-List.getD_eq_getElem?_getD]) <;>
          first | omega | assumption | grind [beacon_wire, lease_wire]
    · simp only [h2]
      refine ⟨?_, .inl ⟨r, ?_⟩, by simp⟩
      · constructor <;> (try simp [-List.getD_eq_getElem?_getD]) <;>
          first | omega | assumption | grind [beacon_wire, lease_wire]
      · constructor <;> (try simp [-List.getD_eq_getElem?_getD]) <;>
          first | omega | assumption | grind [beacon_wire, lease_wire]
  | devReceive =>
    simp only [step]
    cases hq : s.toDev with
    | nil =>
      refine ⟨?_, .inl ⟨r, ?_⟩, by simp⟩
      · constructor <;> (try simp [-List.getD_eq_getElem?_getD]) <;>
          first | omega | assumption | grind [beacon_wire, lease_wire]
      · constructor <;> (try simp [-List.getD_eq_getElem?_getD]) <;>
          first | omega | assumption | grind [beacon_wire, lease_wire]
    | cons m rest =>
      by_cases hm : Beacon m.2
      · obtain ⟨set, hset⟩ := parse_beacon params s.dev t m.2 lease b10 hm (b5 m (by simp [hq]) hm)
        have hs2 : ∀ b ∈ (if m.2.getD 10 0 % 2 = 1 then params set else []), ¬Sensing b := by
          have := hpar set
          intro b hb; split at hb <;> simp_all
        simp only [hset]
        generalize (if m.2.getD 10 0 % 2 = 1 then params set else []) = out at hs2 ⊢
        refine ⟨?_, .inl ⟨t, ?_⟩, by simp⟩
        · constructor <;> (try simp [-List.getD_eq_getElem?_getD]) <;>
            first | omega | assumption | grind [beacon_wire, lease_wire]
        · constructor <;> (try simp [-List.getD_eq_getElem?_getD]) <;>
            first | omega | assumption | grind [beacon_wire, lease_wire]
      · simp only [parse_other params s.dev t m.2 b10 hm]
        refine ⟨?_, .inl ⟨r, ?_⟩, by simp⟩
        · constructor <;> (try simp [-List.getD_eq_getElem?_getD]) <;>
            first | omega | assumption | grind [beacon_wire, lease_wire]
        · constructor <;> (try simp [-List.getD_eq_getElem?_getD]) <;>
            first | omega | assumption | grind [beacon_wire, lease_wire]
  | devSend bytes =>
    simp only [Regular] at n6
    simp only [step]
    refine ⟨?_, .inl ⟨r, ?_⟩, by simp⟩
    · constructor <;> (try simp [-List.getD_eq_getElem?_getD]) <;>
        first | omega | assumption | grind [beacon_wire, lease_wire]
    · constructor <;> (try simp [-List.getD_eq_getElem?_getD]) <;>
        first | omega | assumption | grind [beacon_wire, lease_wire]
  | unplug => exact absurd n6 (by simp [Regular])
  | devRestart => exact absurd n6 (by simp [Regular])
  | pyRestart => exact absurd n6 (by simp [Regular])

theorem stepD (hpar : ∀ set, ∀ b ∈ params set, ¬Sensing b) {r : Int} (hb : Base lease s)
    (h : PhaseD lease gap delay r s) (hf : Fits lease gap delay) (hn : Next gap delay s t e) :
    Base lease (step params s t e).1 ∧
      (∃ r', PhaseD lease gap delay r' (step params s t e).1) ∧
      .connectionLost ∉ (step params s t e).2 := by
  obtain ⟨b1, b2, b3, b4, b5, b6, b7, b8, b9, b10, b11, b12, b13⟩ := hb
  obtain ⟨a1, a2, a3, a4, a5, a6, a7, a8, a9, a10, a11⟩ := h
  obtain ⟨n1, n2, n3, n4, n5, n6⟩ := hn
  obtain ⟨f1, f2, f3, f4⟩ := hf
  have w1 : ∀ m ∈ s.toDev, m.1 ≤ t := fun m hm => by have := b3 m hm; omega
  have w2 : ∀ m ∈ s.toPy, m.1 ≤ t := fun m hm => by have := b4 m hm; omega
  have w3 : t ≤ s.py.sensing.lastReset + 1500 := by
    rcases a11 with ⟨-, h⟩ | ⟨m, h1, -, h2⟩
    · omega
    · have := n5 m h1; omega
  have w4 : t ≤ r + granted lease := by
    rcases a10 with ⟨-, h⟩ | ⟨m, h1, -, h2⟩
    · omega
    · have := n4 m h1; omega
  cases e with
  | pyUpdate =>
    simp only [step]
    rcases Protocol.update_spec s.py t with ⟨h1, -⟩ | ⟨h1, -⟩ | ⟨h1, h2, h3⟩ | ⟨h1, h2, h3, h4⟩ | ⟨h1, h2, h3, h4⟩
    · simp [a2] at h1
    · simp [a2] at h1
    · omega
    · rw [h4]
      simp only [wire, b6]
      refine ⟨?_, ⟨r, ?_⟩, by simp⟩
      · constructor <;> (try simp [-List.getD_eq_getElem?_getD]) <;>
          first | omega | assumption | grind [beacon_wire, lease_wire]
      · constructor <;> (try simp [-List.getD_eq_getElem?_getD]) <;>
          first | omega | assumption | grind [beacon_wire, lease_wire]
    · rw [h4]
      simp only [wire]
      refine ⟨?_, ⟨r, ?_⟩, by simp⟩
      · constructor <;> (try simp [-List.getD_eq_getElem?_getD]) <;>
          first | omega | assumption | grind [beacon_wire, lease_wire]
      · constructor <;> (try simp [-List.getD_eq_getElem?_getD]) <;>
          first | omega | assumption | grind [beacon_wire, lease_wire]
  | pyReceive =>
    simp only [step]
    cases hq : s.toPy with
    | nil =>
      refine ⟨?_, ⟨r, ?_⟩, by simp⟩
      · constructor <;> (try simp [-List.getD_eq_getElem?_getD]) <;>
          first | omega | assumption | grind [beacon_wire, lease_wire]
      · constructor <;> (try simp [-List.getD_eq_getElem?_getD]) <;>
          first | omega | assumption | grind [beacon_wire, lease_wire]
    | cons m rest =>
      simp only
      rcases py_receive s.py t m.2 with ⟨h1, h2, x, h3, h4⟩ | ⟨h1, h2⟩
      · simp only [h3, h4, a2]
        refine ⟨?_, ⟨r, ?_⟩, by simp⟩
        · constructor <;> (try simp [-List.getD_eq_getElem?_getD, PeriodCounter.reset]) <;> first | omega | assumption | grind
        · constructor <;> (try simp [-List.getD_eq_getElem?_getD, PeriodCounter.reset]) <;> first | omega | assumption | grind
      · cases hx : (fromMessageBytes [0] m.2).1 with
        | none =>
          refine ⟨?_, ⟨r, ?_⟩, by simp⟩
          · constructor <;> (try simp [-List.getD_eq_getElem?_getD]) <;>
              first | omega | assumption | grind [beacon_wire, lease_wire]
          · constructor <;> (try simp [-List.getD_eq_getElem?_getD]) <;>
              first | omega | assumption | grind [beacon_wire, lease_wire]
        | some x =>
          simp only [h2 x hx]
          refine ⟨?_, ⟨r, ?_⟩, by simp⟩
          · constructor <;> (try simp [-List.getD_eq_getElem?_getD]) <;>
              first | omega | assumption | grind [beacon_wire, lease_wire]
          · constructor <;> (try simp [-List.getD_eq_getElem?_getD]) <;>
              first | omega | assumption | grind [beacon_wire, lease_wire]
  | pySend bytes =>
    simp only [Regular] at n6
    simp only [step]
    refine ⟨?_, ⟨r, ?_⟩, by simp⟩
    · constructor <;> (try simp [-List.getD_eq_getElem?_getD]) <;>
        first | omega | assumption | grind [beacon_wire, lease_wire]
    · constructor <;> (try simp [-List.getD_eq_getElem?_getD]) <;>
        first | omega | assumption | grind [beacon_wire, lease_wire]
  | devUpdate =>
    simp only [step]
    rcases update_connected s.dev t _ _ a4 a5 (by omega) with ⟨h1, h2⟩ | ⟨h1, h2⟩
    · simp only [h2, b10]
      have hk := keepAlive_sensing _ b12
      refine ⟨?_, ⟨r, ?_⟩, by simp⟩
      · constructor <;> (try simp [-List.getD_eq_getElem?_getD]) <;>
          first | omega | assumption | grind [beacon_wire, lease_wire]
      · constructor <;> (try simp [-List.getD_eq_getElem?_getD]) <;>
          first | omega | assumption | grind [beacon_wire, lease_wire]
    · simp only [h2]
      refine ⟨?_, ⟨r, ?_⟩, by simp⟩
      · constructor <;> (try simp [-List.getD_eq_getElem?_getD]) <;>
          first | omega | assumption | grind [beacon_wire, lease_wire]
      · constructor <;> (try simp [-List.getD_eq_getElem?_getD]) <;>
          first | omega | assumption | grind [beacon_wire, lease_wire]
  | devReceive =>
    simp only [step]
    cases hq : s.toDev with
    | nil =>
      refine ⟨?_, ⟨r, ?_⟩, by simp⟩
      · constructor <;> (try simp [-List.getD_eq_getElem?_getD]) <;>
          first | omega | assumption | grind [beacon_wire, lease_wire]
      · constructor <;> (try simp [-List.getD_eq_getElem?_getD]) <;>
          first | omega | assumption | grind [beacon_wire, lease_wire]
    | cons m rest =>
      by_cases hm : Beacon m.2
      · obtain ⟨set, hset⟩ := parse_beacon params s.dev t m.2 lease b10 hm (b5 m (by simp [hq]) hm)
        have hs2 : ∀ b ∈ (if m.2.getD 10 0 % 2 = 1 then params set else []), ¬Sensing b := by
          have := hpar set
          intro b hb; split at hb <;> simp_all
        simp only [hset]
        generalize (if m.2.getD 10 0 % 2 = 1 then params set else []) = out at hs2 ⊢
        refine ⟨?_, ⟨t, ?_⟩, by simp⟩
        · constructor <;> (try simp [-List.getD_eq_getElem?_getD]) <;>
            first | omega | assumption | grind [beacon_wire, lease_wire]
        · constructor <;> (try simp [-List.getD_eq_getElem?_getD]) <;>
            first | omega | assumption | grind [beacon_wire, lease_wire]
      · simp only [parse_other params s.dev t m.2 b10 hm]
        refine ⟨?_, ⟨r, ?_⟩, by simp⟩
        · constructor <;> (try simp [-List.getD_eq_getElem?_getD]) <;>
            first | omega | assumption | grind [beacon_wire, lease_wire]
        · constructor <;> (try simp [-List.getD_eq_getElem?_getD]) <;>
            first | omega | assumption | grind [beacon_wire, lease_wire]
  | devSend bytes =>
    simp only [Regular] at n6
    simp only [step]
    refine ⟨?_, ⟨r, ?_⟩, by simp⟩
    · constructor <;> (try simp [-List.getD_eq_getElem?_getD]) <;>
        first | omega | assumption | grind [beacon_wire, lease_wire]
    · constructor <;> (try simp [-List.getD_eq_getElem?_getD]) <;>
        first | omega | assumption | grind [beacon_wire, lease_wire]
  | unplug => exact absurd n6 (by simp [Regular])
  | devRestart => exact absurd n6 (by simp [Regular])
  | pyRestart => exact absurd n6 (by simp [Regular])

/-- The invariant; `late` is the time after which the connection is established. -/
structure Inv (lease : Nat) (t0 gap delay : Int) (s : Sys) : Prop where
  base : Base lease s
  phase : PhaseA t0 s ∨ PhaseB t0 gap s ∨ (∃ r0 r, PhaseC lease t0 gap delay r0 r s) ∨
    ∃ r, PhaseD lease gap delay r s
  late : max t0 5000 + 500 + 2 * gap + 2 * delay < s.now → ∃ r, PhaseD lease gap delay r s

theorem step_now (s : Sys) (t : Int) (e : Ev) : (step params s t e).1.now = t := by
  cases e <;> simp only [step]
  all_goals repeat' split
  all_goals rfl

theorem Inv.step (hpar : ∀ set, ∀ b ∈ params set, ¬Sensing b) (hf : Fits lease gap delay)
    (h : Inv lease t0 gap delay s) (hn : Next gap delay s t e) :
    Inv lease t0 gap delay (step params s t e).1 ∧ .connectionLost ∉ (step params s t e).2 := by
  have hnow := step_now (params := params) s t e
  obtain ⟨f1, f2, f3, f4⟩ := id hf
  rcases h.phase with ha | hb | ⟨r0, r, hc⟩ | ⟨r, hd⟩
  · obtain ⟨h1, h2, h3⟩ := stepA (params := params) h.base ha hf hn
    refine ⟨⟨h1, by rcases h2 with h | h <;> simp [h], fun hl => ?_⟩, h3⟩
    have := ha.time; have := hn.py; omega
  · obtain ⟨h1, h2, h3⟩ := stepB hpar h.base hb hf hn
    refine ⟨⟨h1, h2.elim (fun h => .inr (.inl h)) fun ⟨_, h⟩ => .inr (.inr (.inl ⟨_, _, h⟩)),
      fun hl => ?_⟩, h3⟩
    obtain ⟨m, m1, m2, m3⟩ := hb.beacon
    have := hb.time; have := hn.toDev m m1; omega
  · obtain ⟨h1, h2, h3⟩ := stepC hpar h.base hc hf hn
    refine ⟨⟨h1, h2.elim (fun ⟨_, h⟩ => .inr (.inr (.inl ⟨_, _, h⟩))) fun h => .inr (.inr (.inr h)),
      fun hl => ?_⟩, h3⟩
    exfalso
    have h4 := hc.time; have h5 := hc.first
    rcases hc.alive with ⟨-, -, h⟩ | ⟨⟨m, h1, -, h2⟩, -⟩
    · have := hn.dev; omega
    · have := hn.toPy m h1; omega
  · obtain ⟨h1, h2, h3⟩ := stepD hpar h.base hd hf hn
    exact ⟨⟨h1, .inr (.inr (.inr h2)), fun _ => h2⟩, h3⟩

theorem Inv.run (hpar : ∀ set, ∀ b ∈ params set, ¬Sensing b) (hf : Fits lease gap delay)
    (es : List (Int × Ev)) : ∀ (s : Sys), Inv lease t0 gap delay s → Timely params gap delay s es →
    Inv lease t0 gap delay (run params s es).1 ∧ .connectionLost ∉ (run params s es).2 := by
  induction es with
  | nil => exact fun s h _ => ⟨h, by simp [Closed.run]⟩
  | cons x es ih =>
    intro s h ht
    obtain ⟨t, e⟩ := x
    obtain ⟨h1, h2, h3, h4, h5, h6, h7⟩ := ht
    obtain ⟨i1, i2⟩ := h.step hpar hf ⟨h1, h2, h3, h4, h5, h6⟩
    obtain ⟨j1, j2⟩ := ih _ i1 h7
    exact ⟨j1, by simp [Closed.run, i2, j2]⟩

theorem Inv.running (h : Inv lease t0 gap delay s) (hr : s.py.running = true) :
    ∃ r, PhaseD lease gap delay r s := by
  rcases h.phase with h | h | ⟨_, _, h⟩ | h
  · simp [h.running] at hr
  · simp [h.running] at hr
  · simp [h.running] at hr
  · exact h

theorem PhaseD.run (hpar : ∀ set, ∀ b ∈ params set, ¬Sensing b) (hf : Fits lease gap delay)
    (es : List (Int × Ev)) : ∀ (s : Sys), Base lease s → (∃ r, PhaseD lease gap delay r s) →
    Timely params gap delay s es → ∃ r, PhaseD lease gap delay r (run params s es).1 := by
  induction es with
  | nil => exact fun s _ h _ => h
  | cons x es ih =>
    intro s hb h ht
    obtain ⟨t, e⟩ := x
    obtain ⟨h1, h2, h3, h4, h5, h6, h7⟩ := ht
    obtain ⟨r, h⟩ := h
    obtain ⟨i1, i2, -⟩ := stepD hpar hb h hf ⟨h1, h2, h3, h4, h5, h6⟩
    exact ih _ i1 i2 h7

theorem Inv.start (hf : Fits lease gap delay) (tuner : Bool) (t0 : Int) :
    Inv lease t0 gap delay (start lease tuner t0) := by
  obtain ⟨f1, f2, f3, f4⟩ := hf
  refine ⟨?_, .inl ?_, fun h => ?_⟩
  · constructor <;> simp [Closed.start, Protocol.initial, Virtual.initial]
  · constructor <;> simp [Closed.start, Protocol.initial, Virtual.initial] <;> omega
  · simp [Closed.start] at h
    omega

theorem timely_append (gap delay : Int) (es fs : List (Int × Ev)) : ∀ s : Sys,
    (Timely params gap delay s (es ++ fs) ↔
      Timely params gap delay s es ∧ Timely params gap delay (run params s es).1 fs) := by
  induction es with
  | nil => simp [Timely, Closed.run]
  | cons x es ih =>
    intro s
    obtain ⟨t, e⟩ := x
    simp only [List.cons_append, Timely, Closed.run, ih]
    grind

theorem run_append (es fs : List (Int × Ev)) : ∀ s : Sys,
    (run params s (es ++ fs)).1 = (run params (run params s es).1 fs).1 := by
  induction es with
  | nil => simp [Closed.run]
  | cons x es ih => intro s; simp [Closed.run, ih]

end

end PySwitch.Kemper.Closed
