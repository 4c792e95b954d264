import Verif.Lemmas.Virtual

/-!
The connection after an interruption, for C113.
-/

set_option linter.unusedSimpArgs false

namespace PySwitch.Kemper.Closed
open PySwitch.Wire PySwitch.Kemper.Closed.Spec PySwitch.Kemper.Protocol.Spec

/-- What holds in all histories, with interruptions. -/
structure Sound (lease : Nat) (s : Sys) : Prop where
  base : Base lease s
  init : s.py.init.lastReset ≤ s.now
  sensing : s.py.sensing.lastReset ≤ s.now
  resend : s.py.resend.lastReset ≤ s.now
  zero : 0 ≤ s.now
  initSent : s.py.running = true → s.py.initSent = true
  sensed : s.py.running = true → s.lastPy ≤ s.py.sensing.lastReset + 1500
  resent : s.py.running = true → s.lastPy ≤ s.py.resend.lastReset + 500 * lease
  leased : s.dev.connected = true → ∃ r, s.dev.timeLease = some ⟨granted lease, r⟩ ∧ r ≤ s.now ∧
    s.lastDev ≤ r + granted lease

/-- The update of the device, in all cases. -/
theorem update_cases (d : Virtual.State) (now L r : Int) (hc : d.connected = true)
    (hl : d.timeLease = some ⟨L, r⟩) :
    (now ≤ r + L ∧ ((Virtual.update d now).1.connected = true ∧
      (Virtual.update d now).1.timeLease = some ⟨L, r⟩)) ∨
    (r + L < now ∧ (Virtual.update d now).1.connected = false) := by
  rcases d with ⟨pt, c, ps, tl, ka, kstep⟩
  simp only at hc hl
  subst hc hl
  by_cases h : r + L < now
  · right
    simp only [Virtual.update, PeriodCounter.exceeded, Option.getD_some, h, if_true]
    by_cases h2 : ka.lastReset + ka.interval < now <;> simp [h2]
  · left
    simp only [Virtual.update, PeriodCounter.exceeded, Option.getD_some, h, if_true, if_false]
    by_cases h2 : ka.lastReset + ka.interval < now <;> simp [h2] <;> omega

theorem update_base (d : Virtual.State) (now : Int) (hp : d.productType = 2) (hk : d.keepAlive.interval = 500)
    (hc : d.keepAliveStep < 128) (hl : d.keepAlive.lastReset ≤ now) :
    (Virtual.update d now).1.productType = 2 ∧ (Virtual.update d now).1.keepAlive.interval = 500 ∧
    (Virtual.update d now).1.keepAliveStep < 128 ∧ (Virtual.update d now).1.keepAlive.lastReset ≤ now := by
  unfold Virtual.update
  simp only [PeriodCounter.exceeded]
  repeat' split
  all_goals grind

section
variable {params : Nat → List (List Nat)} {lease : Nat} {t0 gap delay : Int} {s : Sys} {t : Int} {e : Ev}

theorem Sound.step (h : Sound lease s) (hn : s.now ≤ t) (he : ∀ bytes, e = .pySend bytes → ¬Beacon bytes) :
    Sound lease (step params s t e).1 := by
  obtain ⟨⟨b1, b2, b3, b4, b5, b6, b7, b8, b9, b10, b11, b12, b13⟩, a1, a2, a3, a4, a5, a6, a7, a8⟩ := h
  have w1 : ∀ m ∈ s.toDev, m.1 ≤ t := fun m hm => by have := b3 m hm; omega
  have w2 : ∀ m ∈ s.toPy, m.1 ≤ t := fun m hm => by have := b4 m hm; omega
  have w3 : s.dev.connected = true → ∃ r, s.dev.timeLease = some ⟨granted lease, r⟩ ∧ r ≤ t ∧
    s.lastDev ≤ r + granted lease := fun h => by obtain ⟨r, h1, h2, h3⟩ := a8 h; exact ⟨r, h1, by omega, h3⟩
  have wg : 0 ≤ granted lease := by unfold granted; omega
  cases e with
  | pyUpdate =>
    simp only [step]
    rcases Protocol.update_spec s.py t with ⟨h1, h2, h3⟩ | ⟨h1, h2, h3⟩ | ⟨h1, h2, h3⟩ | ⟨h1, h2, h3, h4⟩ | ⟨h1, h2, h3, h4⟩
    · rw [h3]
      have hw : wire ((if s.py.hasBeenRunning then [.connectionLost] else []) ++
        [.send (beaconMsg true s.py.tunerMode s.py.lease)]) = [toBytes 0 (beaconMsg true s.py.tunerMode lease)] := by
        rw [b6]; unfold wire; split <;> simp
      simp only [hw]
      refine ⟨?_, ?_, ?_, ?_, ?_, ?_, ?_, ?_, ?_⟩
      · constructor <;> (try simp [-List.getD_eq_getElem?_getD, PeriodCounter.reset]) <;>
          first | omega | assumption | grind [beacon_wire, lease_wire]
      all_goals simp
      all_goals first | omega | assumption | grind
    · rw [h3]
      simp only [wire]
      refine ⟨?_, ?_, ?_, ?_, ?_, ?_, ?_, ?_, ?_⟩
      · constructor <;> (try simp [-List.getD_eq_getElem?_getD, PeriodCounter.reset]) <;>
          first | omega | assumption | grind [beacon_wire, lease_wire]
      all_goals simp
      all_goals first | omega | assumption | grind
    · rw [h3]
      simp only [wire]
      refine ⟨?_, ?_, ?_, ?_, ?_, ?_, ?_, ?_, ?_⟩
      · constructor <;> (try simp [-List.getD_eq_getElem?_getD, PeriodCounter.reset]) <;>
          first | omega | assumption | grind [beacon_wire, lease_wire]
      all_goals simp
      all_goals first | omega | assumption | grind
    · rw [h4]
      simp only [wire, b6]
      refine ⟨?_, ?_, ?_, ?_, ?_, ?_, ?_, ?_, ?_⟩
      · constructor <;> (try simp [-List.getD_eq_getElem?_getD, PeriodCounter.reset]) <;>
          first | omega | assumption | grind [beacon_wire, lease_wire]
      all_goals simp
      all_goals first | omega | assumption | grind
    · rw [h4]
      simp only [wire]
      refine ⟨?_, ?_, ?_, ?_, ?_, ?_, ?_, ?_, ?_⟩
      · constructor <;> (try simp [-List.getD_eq_getElem?_getD, PeriodCounter.reset]) <;>
          first | omega | assumption | grind [beacon_wire, lease_wire]
      all_goals simp
      all_goals first | omega | assumption | grind
  | pyReceive =>
    simp only [step]
    cases hq : s.toPy with
    | nil =>
      refine ⟨?_, ?_, ?_, ?_, ?_, ?_, ?_, ?_, ?_⟩
      · constructor <;> (try simp [-List.getD_eq_getElem?_getD, PeriodCounter.reset]) <;>
          first | omega | assumption | grind [beacon_wire, lease_wire]
      all_goals try simp
      all_goals first | omega | assumption | grind
    | cons m rest =>
      simp only
      rcases py_receive s.py t m.2 with ⟨h1, h2, x, h3, h4⟩ | ⟨h1, h2⟩
      · simp only [h3, h4]
        refine ⟨?_, ?_, ?_, ?_, ?_, ?_, ?_, ?_, ?_⟩
        · constructor <;> (try simp [-List.getD_eq_getElem?_getD, PeriodCounter.reset]) <;>
            first | omega | assumption | grind [beacon_wire, lease_wire]
        all_goals try simp [PeriodCounter.reset]
        all_goals first | omega | assumption | grind
      · cases hx : (fromMessageBytes [0] m.2).1 with
        | none =>
          refine ⟨?_, ?_, ?_, ?_, ?_, ?_, ?_, ?_, ?_⟩
          · constructor <;> (try simp [-List.getD_eq_getElem?_getD, PeriodCounter.reset]) <;>
              first | omega | assumption | grind [beacon_wire, lease_wire]
          all_goals try simp
          all_goals first | omega | assumption | grind
        | some x =>
          simp only [h2 x hx]
          refine ⟨?_, ?_, ?_, ?_, ?_, ?_, ?_, ?_, ?_⟩
          · constructor <;> (try simp [-List.getD_eq_getElem?_getD, PeriodCounter.reset]) <;>
              first | omega | assumption | grind [beacon_wire, lease_wire]
          all_goals try simp
          all_goals first | omega | assumption | grind
  | pySend bytes =>
    have he := he bytes rfl
    simp only [step]
    refine ⟨?_, ?_, ?_, ?_, ?_, ?_, ?_, ?_, ?_⟩
    · constructor <;> (try simp [-List.getD_eq_getElem?_getD, PeriodCounter.reset]) <;>
        first | omega | assumption | grind [beacon_wire, lease_wire]
    all_goals try simp
    all_goals first | omega | assumption | grind
  | devUpdate =>
    simp only [step]
    obtain ⟨u1, u2, u3, u4⟩ := update_base s.dev t b10 b11 b12 (by omega)
    have u5 : (Virtual.update s.dev t).1.connected = true → ∃ r,
        (Virtual.update s.dev t).1.timeLease = some ⟨granted lease, r⟩ ∧ r ≤ t ∧ t ≤ r + granted lease := by
      intro h
      cases hc : s.dev.connected with
      | false => rw [update_offline _ _ hc] at h; simp [hc] at h
      | true =>
        obtain ⟨r, h1, h2, h3⟩ := a8 hc
        rcases update_cases s.dev t _ _ hc h1 with ⟨h4, h5, h6⟩ | ⟨h4, h5⟩
        · exact ⟨r, h6, by omega, h4⟩
        · simp [h5] at h
    refine ⟨?_, ?_, ?_, ?_, ?_, ?_, ?_, ?_, ?_⟩
    · constructor <;> (try simp [-List.getD_eq_getElem?_getD, PeriodCounter.reset]) <;>
        first | omega | assumption | grind [beacon_wire, lease_wire]
    all_goals try simp
    all_goals first | omega | assumption | grind
  | devReceive =>
    simp only [step]
    cases hq : s.toDev with
    | nil =>
      refine ⟨?_, ?_, ?_, ?_, ?_, ?_, ?_, ?_, ?_⟩
      · constructor <;> (try simp [-List.getD_eq_getElem?_getD, PeriodCounter.reset]) <;>
          first | omega | assumption | grind [beacon_wire, lease_wire]
      all_goals try simp
      all_goals first | omega | assumption | grind
    | cons m rest =>
      by_cases hm : Beacon m.2
      · obtain ⟨set, hset⟩ := parse_beacon params s.dev t m.2 lease b10 hm (b5 m (by simp [hq]) hm)
        simp only [hset]
        generalize (if m.2.getD 10 0 % 2 = 1 then params set else []) = out
        refine ⟨?_, ?_, ?_, ?_, ?_, ?_, ?_, ?_, ?_⟩
        · constructor <;> (try simp [-List.getD_eq_getElem?_getD, PeriodCounter.reset]) <;>
            first | omega | assumption | grind [beacon_wire, lease_wire]
        all_goals try simp
        all_goals first | omega | assumption | grind
      · simp only [parse_other params s.dev t m.2 b10 hm]
        refine ⟨?_, ?_, ?_, ?_, ?_, ?_, ?_, ?_, ?_⟩
        · constructor <;> (try simp [-List.getD_eq_getElem?_getD, PeriodCounter.reset]) <;>
            first | omega | assumption | grind [beacon_wire, lease_wire]
        all_goals try simp
        all_goals first | omega | assumption | grind
  | devSend bytes =>
    simp only [step]
    refine ⟨?_, ?_, ?_, ?_, ?_, ?_, ?_, ?_, ?_⟩
    · constructor <;> (try simp [-List.getD_eq_getElem?_getD, PeriodCounter.reset]) <;>
        first | omega | assumption | grind [beacon_wire, lease_wire]
    all_goals try simp
    all_goals first | omega | assumption | grind
  | unplug =>
    simp only [step]
    refine ⟨?_, ?_, ?_, ?_, ?_, ?_, ?_, ?_, ?_⟩
    · constructor <;> (try simp [-List.getD_eq_getElem?_getD, PeriodCounter.reset]) <;>
        first | omega | assumption | grind [beacon_wire, lease_wire]
    all_goals try simp
    all_goals first | omega | assumption | grind
  | devRestart =>
    simp only [step, Virtual.initial]
    refine ⟨?_, ?_, ?_, ?_, ?_, ?_, ?_, ?_, ?_⟩
    · constructor <;> (try simp [-List.getD_eq_getElem?_getD, PeriodCounter.reset]) <;>
        first | omega | assumption | grind [beacon_wire, lease_wire]
    all_goals try simp
    all_goals first | omega | assumption | grind
  | pyRestart =>
    simp only [step, Protocol.initial]
    refine ⟨?_, ?_, ?_, ?_, ?_, ?_, ?_, ?_, ?_⟩
    · constructor <;> (try simp [-List.getD_eq_getElem?_getD, PeriodCounter.reset]) <;>
        first | omega | assumption | grind [beacon_wire, lease_wire]
    all_goals try simp
    all_goals first | omega | assumption | grind

/-- No beacon yet since the end `T` of the interruption; `M` bounds the time of the last update. -/
structure PhaseX (lease : Nat) (T gap delay : Int) (s : Sys) : Prop where
  noBeacon : ∀ m ∈ s.toDev, ¬Beacon m.2
  init : s.py.init.lastReset ≤ T
  dev : s.dev.connected = true → s.lastDev ≤ T + granted lease
  sense : ∀ m ∈ s.toPy, Sensing m.2 → m.1 ≤ T + granted lease + gap
  leaseEnd : ∀ L r, s.dev.connected = true → s.dev.timeLease = some ⟨L, r⟩ → r + L ≤ T + granted lease
  sensed : s.py.running = true → s.py.sensing.lastReset ≤ T + granted lease + gap + delay
  py : s.lastPy ≤ T + max 5000 (granted lease + 2 * gap + delay + 1500)

/-- A beacon is under way. -/
structure PhaseY (lease : Nat) (T gap delay : Int) (s : Sys) : Prop where
  initSent : s.py.initSent = true
  beacon : ∃ m ∈ s.toDev, Beacon m.2 ∧ m.1 ≤ T + max 5000 (granted lease + 2 * gap + delay + 1500) + gap

/-- The device is connected by a beacon received at `r0`. -/
structure PhaseZ (lease : Nat) (T gap delay r0 r : Int) (s : Sys) : Prop where
  initSent : s.py.initSent = true
  first : r0 ≤ T + max 5000 (granted lease + 2 * gap + delay + 1500) + gap + delay
  le : r0 ≤ r
  past : r ≤ s.now
  connected : s.dev.connected = true
  until_ : s.dev.timeLease = some ⟨granted lease, r⟩
  alive : (s.dev.keepAlive.lastReset ≤ r0 ∧ s.lastDev ≤ r0 + 500) ∨
    ((∃ m ∈ s.toPy, Sensing m.2 ∧ m.1 ≤ r0 + 500 + gap) ∧
      s.lastDev ≤ s.dev.keepAlive.lastReset + 500)

theorem stepX {T : Int} (hs : Sound lease s)
    (h : PhaseX lease T gap delay s) (hf : Fits lease gap delay) (hn : Next gap delay s t e) :
    PhaseX lease T gap delay (step params s t e).1 ∨ PhaseY lease T gap delay (step params s t e).1 := by
  obtain ⟨⟨b1, b2, b3, b4, b5, b6, b7, b8, b9, b10, b11, b12, b13⟩, s1, s2, s3, s4, s5, s6, s7, s8⟩ := hs
  obtain ⟨a1, a2, a3, a4, a5, a6, a7⟩ := h
  obtain ⟨n1, n2, n3, n4, n5, n6⟩ := hn
  obtain ⟨f1, f2, f3, f4⟩ := hf
  cases e with
  | pyUpdate =>
    simp only [step]
    rcases Protocol.update_spec s.py t with ⟨h1, h2, h3⟩ | ⟨h1, h2, h3⟩ | ⟨h1, h2, h3⟩ | ⟨h1, h2, h3, h4⟩ | ⟨h1, h2, h3, h4⟩
    · right
      rw [h3]
      have hw : wire ((if s.py.hasBeenRunning then [.connectionLost] else []) ++
        [.send (beaconMsg true s.py.tunerMode s.py.lease)]) = [toBytes 0 (beaconMsg true s.py.tunerMode lease)] := by
        rw [b6]; unfold wire; split <;> simp
      simp only [hw]
      constructor <;> (try simp [-List.getD_eq_getElem?_getD, PeriodCounter.reset]) <;>
        first | omega | assumption | grind [beacon_wire, lease_wire]
    · left
      rw [h3]
      simp only [wire]
      constructor <;> (try simp [-List.getD_eq_getElem?_getD, PeriodCounter.reset]) <;>
        first | omega | assumption | grind [beacon_wire, lease_wire]
    · left
      rw [h3]
      simp only [wire]
      have := s6 h1
      have := a6 h1
      constructor <;> (try simp [-List.getD_eq_getElem?_getD, PeriodCounter.reset]) <;>
        first | omega | assumption | grind [beacon_wire, lease_wire]
    · right
      rw [h4]
      simp only [wire, b6]
      have := s5 h1
      constructor <;> (try simp [-List.getD_eq_getElem?_getD, PeriodCounter.reset]) <;>
        first | omega | assumption | grind [beacon_wire, lease_wire]
    · left
      rw [h4]
      simp only [wire]
      have := a6 h1
      constructor <;> (try simp [-List.getD_eq_getElem?_getD, PeriodCounter.reset]) <;>
        first | omega | assumption | grind [beacon_wire, lease_wire]
  | pyReceive =>
    left
    simp only [step]
    cases hq : s.toPy with
    | nil => constructor <;> (try simp [-List.getD_eq_getElem?_getD, PeriodCounter.reset]) <;>
      first | omega | assumption | grind [beacon_wire, lease_wire]
    | cons m rest =>
      simp only
      rcases py_receive s.py t m.2 with ⟨h1, h2, x, h3, h4⟩ | ⟨h1, h2⟩
      · simp only [h3, h4]
        have h5 := n5 m (by simp [hq])
        have h6 := a4 m (by simp [hq]) h2
        constructor <;> (try simp [-List.getD_eq_getElem?_getD, PeriodCounter.reset]) <;>
          first | omega | assumption | grind [beacon_wire, lease_wire]
      · cases hx : (fromMessageBytes [0] m.2).1 with
        | none => constructor <;> (try simp [-List.getD_eq_getElem?_getD, PeriodCounter.reset]) <;>
          first | omega | assumption | grind [beacon_wire, lease_wire]
        | some x =>
          simp only [h2 x hx]
          constructor <;> (try simp [-List.getD_eq_getElem?_getD, PeriodCounter.reset]) <;>
            first | omega | assumption | grind [beacon_wire, lease_wire]
  | pySend bytes =>
    left
    simp only [Regular] at n6
    simp only [step]
    constructor <;> (try simp [-List.getD_eq_getElem?_getD, PeriodCounter.reset]) <;>
      first | omega | assumption | grind [beacon_wire, lease_wire]
  | devUpdate =>
    left
    simp only [step]
    cases hc : s.dev.connected with
    | false =>
      rw [update_offline _ _ hc]
      constructor <;> (try simp [-List.getD_eq_getElem?_getD, PeriodCounter.reset]) <;>
        first | omega | assumption | grind [beacon_wire, lease_wire]
    | true =>
      have h0 := a3 hc
      obtain ⟨r, h1, h2, h3⟩ := s8 hc
      have h4 := a5 _ _ hc h1
      have hu : ∀ m ∈ (Virtual.update s.dev t).2.map (fun m => (t, m)), m.1 = t := by simp +contextual
      rcases update_cases s.dev t _ _ hc h1 with ⟨h5, h6, h7⟩ | ⟨h5, h6⟩
      · generalize (Virtual.update s.dev t).2.map (fun m => (t, m)) = out at hu
        constructor <;> (try simp [-List.getD_eq_getElem?_getD, PeriodCounter.reset]) <;>
          first | omega | assumption | grind [beacon_wire, lease_wire]
      · generalize (Virtual.update s.dev t).2.map (fun m => (t, m)) = out at hu
        constructor <;> (try simp [-List.getD_eq_getElem?_getD, PeriodCounter.reset]) <;>
          first | omega | assumption | grind [beacon_wire, lease_wire]
  | devReceive =>
    left
    simp only [step]
    cases hq : s.toDev with
    | nil => constructor <;> (try simp [-List.getD_eq_getElem?_getD, PeriodCounter.reset]) <;>
      first | omega | assumption | grind [beacon_wire, lease_wire]
    | cons m rest =>
      simp only [parse_other params s.dev t m.2 b10 (a1 m (by simp [hq]))]
      constructor <;> (try simp [-List.getD_eq_getElem?_getD, PeriodCounter.reset]) <;>
        first | omega | assumption | grind [beacon_wire, lease_wire]
  | devSend bytes =>
    left
    simp only [Regular] at n6
    simp only [step]
    constructor <;> (try simp [-List.getD_eq_getElem?_getD, PeriodCounter.reset]) <;>
      first | omega | assumption | grind [beacon_wire, lease_wire]
  | unplug => exact absurd n6 (by simp [Regular])
  | devRestart => exact absurd n6 (by simp [Regular])
  | pyRestart => exact absurd n6 (by simp [Regular])

theorem stepY {T : Int} (hs : Sound lease s)
    (h : PhaseY lease T gap delay s) (hn : Next gap delay s t e) :
    PhaseY lease T gap delay (step params s t e).1 ∨
      ∃ r, PhaseZ lease T gap delay r r (step params s t e).1 := by
  obtain ⟨⟨b1, b2, b3, b4, b5, b6, b7, b8, b9, b10, b11, b12, b13⟩, s1, s2, s3, s4, s5, s6, s7, s8⟩ := hs
  obtain ⟨a1, m0, a2, a3, a4⟩ := h
  obtain ⟨n1, n2, n3, n4, n5, n6⟩ := hn
  have w := n4 m0 a2
  have w4 : ∃ m ∈ s.toDev, Beacon m.2 ∧ m.1 ≤ T + max 5000 (granted lease + 2 * gap + delay + 1500) + gap :=
    ⟨m0, a2, a3, a4⟩
  cases e with
  | pyUpdate =>
    left
    simp only [step]
    refine ⟨?_, m0, by simp [a2], a3, a4⟩
    rcases Protocol.update_spec s.py t with ⟨h1, h2, h3⟩ | ⟨h1, h2, h3⟩ | ⟨h1, h2, h3⟩ | ⟨h1, h2, h3, h4⟩ | ⟨h1, h2, h3, h4⟩
    · rw [h3]
    · rw [h3]; exact a1
    · rw [h3]; exact a1
    · rw [h4]; exact a1
    · rw [h4]; exact a1
  | pyReceive =>
    left
    simp only [step]
    cases hq : s.toPy with
    | nil => constructor <;> (try simp [-List.getD_eq_getElem?_getD, PeriodCounter.reset]) <;>
      first | omega | assumption | grind [beacon_wire, lease_wire]
    | cons m rest =>
      simp only
      rcases py_receive s.py t m.2 with ⟨h1, h2, x, h3, h4⟩ | ⟨h1, h2⟩
      · simp only [h3, h4]
        constructor <;> (try simp [-List.getD_eq_getElem?_getD, PeriodCounter.reset]) <;>
          first | omega | assumption | grind [beacon_wire, lease_wire]
      · cases hx : (fromMessageBytes [0] m.2).1 with
        | none => constructor <;> (try simp [-List.getD_eq_getElem?_getD, PeriodCounter.reset]) <;>
          first | omega | assumption | grind [beacon_wire, lease_wire]
        | some x =>
          simp only [h2 x hx]
          constructor <;> (try simp [-List.getD_eq_getElem?_getD, PeriodCounter.reset]) <;>
            first | omega | assumption | grind [beacon_wire, lease_wire]
  | pySend bytes =>
    left
    simp only [step]
    exact ⟨a1, m0, by simp [a2], a3, a4⟩
  | devUpdate =>
    left
    simp only [step]
    exact ⟨a1, m0, a2, a3, a4⟩
  | devReceive =>
    simp only [step]
    cases hq : s.toDev with
    | nil => simp [hq] at a2
    | cons m rest =>
      by_cases hm : Beacon m.2
      · right
        obtain ⟨set, hset⟩ := parse_beacon params s.dev t m.2 lease b10 hm (b5 m (by simp [hq]) hm)
        simp only [hset]
        refine ⟨t, ?_⟩
        constructor <;> (try simp [-List.getD_eq_getElem?_getD, PeriodCounter.reset]) <;>
          first | omega | assumption | grind [beacon_wire, lease_wire]
      · left
        simp only [parse_other params s.dev t m.2 b10 hm]
        constructor <;> (try simp [-List.getD_eq_getElem?_getD, PeriodCounter.reset]) <;>
          first | omega | assumption | grind [beacon_wire, lease_wire]
  | devSend bytes =>
    left
    simp only [step]
    exact ⟨a1, m0, a2, a3, a4⟩
  | unplug => exact absurd n6 (by simp [Regular])
  | devRestart => exact absurd n6 (by simp [Regular])
  | pyRestart => exact absurd n6 (by simp [Regular])

theorem PhaseZ.bound {T r0 r : Int} (h : PhaseZ lease T gap delay r0 r s) (hf : Fits lease gap delay)
    (hn : Next gap delay s t e) : t ≤ r0 + 500 + gap + delay := by
  have f2 := hf.delay0
  rcases h.alive with ⟨-, h⟩ | ⟨⟨m, h1, -, h2⟩, -⟩
  · have := hn.dev; omega
  · have := hn.toPy m h1; omega

theorem stepZ {T r0 r : Int} (hs : Sound lease s)
    (h : PhaseZ lease T gap delay r0 r s) (hf : Fits lease gap delay) (hn : Next gap delay s t e) :
    (∃ r', PhaseZ lease T gap delay r0 r' (step params s t e).1) ∨
      ∃ r', PhaseD lease gap delay r' (step params s t e).1 := by
  have w := h.bound hf hn
  obtain ⟨⟨b1, b2, b3, b4, b5, b6, b7, b8, b9, b10, b11, b12, b13⟩, s1, s2, s3, s4, s5, s6, s7, s8⟩ := hs
  obtain ⟨a1, a2, a3, a4, a5, a6, a7⟩ := h
  obtain ⟨n1, n2, n3, n4, n5, n6⟩ := hn
  obtain ⟨f1, f2, f3, f4⟩ := hf
  have w1 : ∀ m ∈ s.toDev, m.1 ≤ t := fun m hm => by have := b3 m hm; omega
  have w2 : ∀ m ∈ s.toPy, m.1 ≤ t := fun m hm => by have := b4 m hm; omega
  cases e with
  | pyUpdate =>
    left
    refine ⟨r, ?_⟩
    simp only [step]
    rcases Protocol.update_spec s.py t with ⟨h1, h2, h3⟩ | ⟨h1, h2, h3⟩ | ⟨h1, h2, h3⟩ | ⟨h1, h2, h3, h4⟩ | ⟨h1, h2, h3, h4⟩
    · rw [h3]
      constructor <;> (try simp [-List.getD_eq_getElem?_getD, PeriodCounter.reset]) <;>
        first | omega | assumption | grind [beacon_wire, lease_wire]
    · rw [h3]
      constructor <;> (try simp [-List.getD_eq_getElem?_getD, PeriodCounter.reset]) <;>
        first | omega | assumption | grind [beacon_wire, lease_wire]
    · rw [h3]
      constructor <;> (try simp [-List.getD_eq_getElem?_getD, PeriodCounter.reset]) <;>
        first | omega | assumption | grind [beacon_wire, lease_wire]
    · rw [h4]
      constructor <;> (try simp [-List.getD_eq_getElem?_getD, PeriodCounter.reset]) <;>
        first | omega | assumption | grind [beacon_wire, lease_wire]
    · rw [h4]
      constructor <;> (try simp [-List.getD_eq_getElem?_getD, PeriodCounter.reset]) <;>
        first | omega | assumption | grind [beacon_wire, lease_wire]
  | pyReceive =>
    simp only [step]
    cases hq : s.toPy with
    | nil =>
      left
      refine ⟨r, ?_⟩
      constructor <;> (try simp [-List.getD_eq_getElem?_getD, PeriodCounter.reset]) <;>
        first | omega | assumption | grind [beacon_wire, lease_wire]
    | cons m rest =>
      simp only
      rcases py_receive s.py t m.2 with ⟨h1, h2, x, h3, h4⟩ | ⟨h1, h2⟩
      · simp only [h3, h4]
        rcases a7 with a7 | ⟨-, a7⟩
        · left
          refine ⟨r, ?_⟩
          constructor <;> (try simp [-List.getD_eq_getElem?_getD, PeriodCounter.reset]) <;>
            first | omega | assumption | grind [beacon_wire, lease_wire]
        · right
          refine ⟨r, ?_⟩
          have w5 : ∀ m ∈ s.toDev, m.1 ≤ r + 500 + 2 * gap + delay + 500 * lease := fun m hm => by
            have := w1 m hm; omega
          have w6 : ∀ m ∈ rest, m.1 ≤ t + 500 + gap := fun m hm => by
            have := w2 m (by simp [hq, hm]); omega
          constructor <;> (try simp [-List.getD_eq_getElem?_getD, PeriodCounter.reset]) <;>
            first | omega | assumption | grind [beacon_wire, lease_wire]
      · left
        refine ⟨r, ?_⟩
        cases hx : (fromMessageBytes [0] m.2).1 with
        | none => constructor <;> (try simp [-List.getD_eq_getElem?_getD, PeriodCounter.reset]) <;>
          first | omega | assumption | grind [beacon_wire, lease_wire]
        | some x =>
          simp only [h2 x hx]
          constructor <;> (try simp [-List.getD_eq_getElem?_getD, PeriodCounter.reset]) <;>
            first | omega | assumption | grind [beacon_wire, lease_wire]
  | pySend bytes =>
    left
    refine ⟨r, ?_⟩
    simp only [step]
    constructor <;> (try simp [-List.getD_eq_getElem?_getD, PeriodCounter.reset]) <;>
      first | omega | assumption | grind [beacon_wire, lease_wire]
  | devUpdate =>
    left
    refine ⟨r, ?_⟩
    simp only [step]
    rcases update_connected s.dev t _ _ a5 a6 (by omega) with ⟨h1, h2⟩ | ⟨h1, h2⟩
    · simp only [h2, b10]
      have hk := keepAlive_sensing _ b12
      constructor <;> (try simp [-List.getD_eq_getElem?_getD, PeriodCounter.reset]) <;>
        first | omega | assumption | grind [beacon_wire, lease_wire]
    · simp only [h2]
      constructor <;> (try simp [-List.getD_eq_getElem?_getD, PeriodCounter.reset]) <;>
        first | omega | assumption | grind [beacon_wire, lease_wire]
  | devReceive =>
    left
    simp only [step]
    cases hq : s.toDev with
    | nil =>
      refine ⟨r, ?_⟩
      constructor <;> (try simp [-List.getD_eq_getElem?_getD, PeriodCounter.reset]) <;>
        first | omega | assumption | grind [beacon_wire, lease_wire]
    | cons m rest =>
      by_cases hm : Beacon m.2
      · obtain ⟨set, hset⟩ := parse_beacon params s.dev t m.2 lease b10 hm (b5 m (by simp [hq]) hm)
        simp only [hset]
        refine ⟨t, ?_⟩
        constructor <;> (try simp [-List.getD_eq_getElem?_getD, PeriodCounter.reset]) <;>
          first | omega | assumption | grind [beacon_wire, lease_wire]
      · simp only [parse_other params s.dev t m.2 b10 hm]
        refine ⟨r, ?_⟩
        constructor <;> (try simp [-List.getD_eq_getElem?_getD, PeriodCounter.reset]) <;>
          first | omega | assumption | grind [beacon_wire, lease_wire]
  | devSend bytes =>
    left
    refine ⟨r, ?_⟩
    simp only [step]
    constructor <;> (try simp [-List.getD_eq_getElem?_getD, PeriodCounter.reset]) <;>
      first | omega | assumption | grind [beacon_wire, lease_wire]
  | unplug => exact absurd n6 (by simp [Regular])
  | devRestart => exact absurd n6 (by simp [Regular])
  | pyRestart => exact absurd n6 (by simp [Regular])

/-- The invariant after an interruption. -/
structure Rec (lease : Nat) (T gap delay : Int) (s : Sys) : Prop where
  sound : Sound lease s
  phase : PhaseX lease T gap delay s ∨ PhaseY lease T gap delay s ∨
    (∃ r0 r, PhaseZ lease T gap delay r0 r s) ∨ ∃ r, PhaseD lease gap delay r s
  late : T + max 5000 (granted lease + 2 * gap + delay + 1500) + 500 + 2 * gap + 2 * delay < s.now →
    ∃ r, PhaseD lease gap delay r s

theorem Rec.step {T : Int} (hpar : ∀ set, ∀ b ∈ params set, ¬Sensing b) (hf : Fits lease gap delay)
    (h : Rec lease T gap delay s) (hn : Next gap delay s t e) :
    Rec lease T gap delay (step params s t e).1 := by
  have hnow := step_now (params := params) s t e
  have hs : Sound lease (Closed.step params s t e).1 := h.sound.step hn.mono (by
    intro b hb; subst hb; exact hn.regular)
  obtain ⟨f1, f2, f3, f4⟩ := id hf
  rcases h.phase with hx | hy | ⟨r0, r, hz⟩ | ⟨r, hd⟩
  · refine ⟨hs, (stepX h.sound hx hf hn).elim .inl fun h => .inr (.inl h), fun hl => ?_⟩
    have := hx.py; have := hn.py; omega
  · refine ⟨hs, (stepY h.sound hy hn).elim (fun h => .inr (.inl h)) fun ⟨_, h⟩ =>
      .inr (.inr (.inl ⟨_, _, h⟩)), fun hl => ?_⟩
    obtain ⟨m, m1, m2, m3⟩ := hy.beacon
    have := hn.toDev m m1; omega
  · refine ⟨hs, (stepZ h.sound hz hf hn).elim (fun ⟨_, h⟩ => .inr (.inr (.inl ⟨_, _, h⟩)))
      fun h => .inr (.inr (.inr h)), fun hl => ?_⟩
    have := hz.bound hf hn; have := hz.first; omega
  · have h2 := (stepD hpar h.sound.base hd hf hn).2.1
    exact ⟨hs, .inr (.inr (.inr h2)), fun _ => h2⟩

theorem Rec.run {T : Int} (hpar : ∀ set, ∀ b ∈ params set, ¬Sensing b) (hf : Fits lease gap delay)
    (es : List (Int × Ev)) : ∀ (s : Sys), Rec lease T gap delay s → Timely params gap delay s es →
    Rec lease T gap delay (run params s es).1 := by
  induction es with
  | nil => exact fun s h _ => h
  | cons x es ih =>
    intro s h ht
    obtain ⟨t, e⟩ := x
    obtain ⟨h1, h2, h3, h4, h5, h6, h7⟩ := ht
    exact ih _ (h.step hpar hf ⟨h1, h2, h3, h4, h5, h6⟩) h7

theorem Sound.run (es : List (Int × Ev)) : ∀ (s : Sys), Sound lease s → Any s.now es →
    Sound lease (run params s es).1 := by
  induction es with
  | nil => exact fun s h _ => h
  | cons x es ih =>
    intro s h ht
    obtain ⟨t, e⟩ := x
    obtain ⟨h1, h2, h3⟩ := ht
    exact ih _ (h.step h1 h2) (by rw [step_now]; exact h3)

theorem Sound.start (tuner : Bool) (h : 0 ≤ t0) : Sound lease (start lease tuner t0) := by
  refine ⟨?_, ?_, ?_, ?_, ?_, ?_, ?_, ?_, ?_⟩
  · constructor <;> simp [Closed.start, Protocol.initial, Virtual.initial]
  all_goals simp [Closed.start, Protocol.initial, Virtual.initial]
  all_goals omega

/-- The cables are connected again. -/
theorem Rec.start (hf : Fits lease gap delay) (h : Sound lease s) (h1 : s.toDev = []) (h2 : s.toPy = []) :
    Rec lease s.now gap delay s := by
  obtain ⟨f1, f2, f3, f4⟩ := hf
  have wg : 0 ≤ granted lease := by unfold granted; omega
  refine ⟨h, .inl ?_, fun hl => by omega⟩
  obtain ⟨⟨b1, b2, b3, b4, b5, b6, b7, b8, b9, b10, b11, b12, b13⟩, a1, a2, a3, a4, a5, a6, a7, a8⟩ := h
  constructor
  · simp [h1]
  · exact a1
  · intro; omega
  · simp [h2]
  · intro L r hc hl
    obtain ⟨r', e1, e2, e3⟩ := a8 hc
    rw [e1] at hl
    simp only [Option.some.injEq, PeriodCounter.mk.injEq] at hl
    omega
  · intro; omega
  · omega

end

end PySwitch.Kemper.Closed
