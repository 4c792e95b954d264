import Verif.Lemmas.VirtualMachine

namespace PySwitch.Kemper.Machine
open PySwitch.Wire PySwitch.Kemper.Virtual PySwitch.Kemper.Setup PySwitch.Kemper.Synced
open PySwitch.Kemper.Machine.Spec
open PySwitch.Kemper.Setup.Spec (Player Midi)

/-! ### Questions -/

theorem ask_device {d : Device} {p : Player} (h : View d p) (now : Int) (date : List Nat) {i n page number : Nat} {t : Param} (hi : i < 44)
    (ht : T[i]? = some t) (hh : t.hit 2 (ask page number) = some .request) (hs : t.send = some (.nrpn [page, number]))
    (hv : val d.params i = some (.num n)) :
    (d.receive now date (ask page number)).2 = [report page number n] ∧ fired 2 d.params (ask page number) = none := by
  have hproto : (ask page number).take 9 ≠ [240, 0, 32, 51, 2, 127, 126, 0, 64] := by simp [ask]
  have hparse : Virtual.receive d.proto d.params now (ask page number) =
      (d.proto, (parseParams 2 d.proto.parameterSet d.params (ask page number)).1, (parseParams 2 d.proto.parameterSet d.params (ask page number)).2) := by
    simp only [Virtual.receive, Virtual.parse, h.product]
    rw [if_pos hproto]
    rfl
  have h47 : ¬(ask page number).take 2 = [176, 47] := by simp [ask]
  simp only [Device.receive, if_neg h47, hparse, h.product]
  rcases parse_cases h.shape d.proto.parameterSet (ask page number) with ⟨j, q, hit, hj, hq, -, hh', hpp, hf⟩ | ⟨hno, -, -⟩
  · obtain ⟨q', hq', hsk⟩ := h.shape.at hj
    rw [hq] at hq'
    simp only [Option.some.injEq] at hq'
    subst hq'
    have hji : j = i := by
      by_cases hji : j = i
      · exact hji
      · have := hit_apart hj hi hji hsk.symm ht (m := ask page number) (by rw [hit_skel, hh']; rfl)
        rw [hh] at this
        simp at this
    subst hji
    rw [ht] at hsk
    simp only [Option.some.injEq] at hsk
    have hhit : hit = .request := by
      rw [← hsk, hit_skel, hh'] at hh
      simpa using hh
    subst hhit
    simp only at hf
    rw [hf, hpp]
    refine ⟨?_, rfl⟩
    have hsend : q.send = some (.nrpn [page, number]) := by rw [← hsk] at hs; exact hs
    have hqv : q.value = .num n := by simpa [val, hq] using hv
    simp [Param.apply, Param.bytes, hsend, hqv, setCode, encode, report]
  · exfalso
    obtain ⟨q', hq', hsk⟩ := h.shape.at hi
    rw [ht] at hsk
    simp only [Option.some.injEq] at hsk
    have := hno i q' hi hq'
    rw [← hit_skel, hsk, hh] at this
    simp at this

theorem ask_machine {m : Machine} (h : ∃ p, View m.dev p) (now : Int) (date : List Nat) {i n page number : Nat} {t : Param} (hi : i < 44)
    (ht : T[i]? = some t) (hh : t.hit 2 (ask page number) = some .request) (hs : t.send = some (.nrpn [page, number]))
    (hv : val m.dev.params i = some (.num n)) : (m.step (.receive now date (ask page number))).2 = [report page number n] := by
  obtain ⟨p, hp⟩ := h
  obtain ⟨h1, h2⟩ := ask_device hp now date hi ht hh hs hv
  have h47 : ¬(ask page number).take 2 = [176, 47] := by simp [ask]
  simp only [Machine.step, Machine.receive, if_neg h47, hp.product, h2, h1]

/-! ### What the callbacks leave alone -/

structure Aft (m r : Machine) : Prop where
  shape : Shape r.dev.params
  vals : ∀ i t, Own i → T[i]? = some t → i ≠ 30 → val r.dev.params i = val m.dev.params i
  v34 : val r.dev.params 34 = val m.dev.params 34
  view : ∀ p, View m.dev p → View r.dev p
  dev : ∃ ps, r.dev = { m.dev with params := ps }
  rest : r.tunerPeriod = m.tunerPeriod ∧ r.rigBtnMorph = m.rigBtnMorph ∧ r.morphBug = m.morphBug

theorem Aft.refl {m : Machine} (h : Shape m.dev.params) : Aft m m := ⟨h, fun _ _ _ _ _ => rfl, rfl, fun _ hp => hp, ⟨_, rfl⟩, rfl, rfl, rfl⟩

theorem Aft.running {m r : Machine} (h : Aft m r) : r.dev.tunerRunning = m.dev.tunerRunning := by
  obtain ⟨ps, hps⟩ := h.dev
  rw [hps]

theorem Aft.last {m r : Machine} (h : Aft m r) : r.dev.lastRig = m.dev.lastRig := by
  obtain ⟨ps, hps⟩ := h.dev
  rw [hps]

theorem Bpm.aft {m r : Machine} {v : Nat} (h : Bpm m r v) : Aft m r :=
  ⟨h.shape, h.vals, h.v34, h.view, h.dev, by rw [h.rest], by rw [h.rest], by rw [h.rest]⟩

theorem Bpm.target {m r : Machine} {v : Nat} (h : Bpm m r v) : r.fadeTarget = m.fadeTarget := by rw [h.rest]

theorem tap_aft {m : Machine} (h : Shape m.dev.params) (now : Int) (v : PVal) : Aft m (m.tap now v).1 ∧ (m.tap now v).1.fadeTarget = m.fadeTarget := by
  unfold Machine.tap
  split
  · exact ⟨.refl h, rfl⟩
  · split
    · exact ⟨⟨h, fun _ _ _ _ _ => rfl, rfl, fun _ hp => hp, ⟨_, rfl⟩, rfl, rfl, rfl⟩, rfl⟩
    · dsimp only
      split
      · exact ⟨⟨h, fun _ _ _ _ _ => rfl, rfl, fun _ hp => hp, ⟨_, rfl⟩, rfl, rfl, rfl⟩, rfl⟩
      · rename_i last _ _
        have b := (setBpm_bpm (m := { m with lastTap := some now }) h now (some ⟨(now - last).toNat, 2, now⟩)).1
        have a := b.aft
        exact ⟨⟨a.shape, a.vals, a.v34, a.view, a.dev, a.rest⟩, b.target⟩

theorem trigger_aft {m : Machine} (h : Shape m.dev.params) : Aft m m.trigger := by
  unfold Machine.trigger
  split
  · exact .refl h
  · exact ⟨h, fun _ _ _ _ _ => rfl, rfl, fun _ hp => hp, ⟨_, rfl⟩, rfl, rfl, rfl⟩

theorem after_aft {m : Machine} (h : Shape m.dev.params) (before : Device) (now : Int) (p : Param) (v : PVal) : Aft m (m.after before now p v).1 := by
  unfold Machine.after
  split
  · split
    · exact (tap_aft h now _).1
    · split
      · split
        · exact trigger_aft h
        · exact .refl h
      · split
        · exact trigger_aft h
        · exact .refl h
  · split
    · exact (setTempo_bpm h now _).aft
    · exact .refl h
  · exact .refl h

/-- Callbacks which have nothing to do with the morphing. -/
theorem after_target {m : Machine} (h : Shape m.dev.params) {before : Device} {now : Int} {p : Param} {v : PVal}
    (hp : ∀ c s, p.receive.head? = some (.cc c s) → c ≠ 80 ∧ ¬(50 ≤ c ∧ c ≤ 54)) : (m.after before now p v).1.fadeTarget = m.fadeTarget := by
  unfold Machine.after
  split
  · rename_i c s hc
    obtain ⟨h1, h2⟩ := hp c s hc
    split
    · exact (tap_aft h now _).2
    · first
      | rw [if_neg h1, if_neg (fun hx => h2 ⟨hx.1, hx.2.1⟩)]
      | rw [if_neg (fun hx => h2 ⟨hx.1, hx.2.1⟩)]
  · split
    · exact (setTempo_bpm h now _).target
    · rfl
  · rfl

/-! ### The selection of rigs -/

theorem receive_shape {d : Device} {p : Player} (h : View d p) (now : Int) (date : List Nat) {msg : List Nat} (hm : Midi msg) :
    View (d.receive now date msg).1 (p.message msg) := (receive_step h now date hm).1

theorem machine_view {m : Machine} {p : Player} (h : View m.dev p) (now : Int) (date : List Nat) {msg : List Nat} (hm : Midi msg) :
    View (m.receive now date msg).1.dev (p.message msg) := by
  have hv := receive_shape h now date hm
  unfold Machine.receive
  dsimp only
  split
  · exact hv
  · split
    · exact hv
    · exact (after_aft (m := { m with dev := (m.dev.receive now date msg).1 }) hv.shape _ now _ _).view _ hv

/-- The last rig is changed by the rig buttons only. -/
theorem callback_last {d : Device} {p : Param} {v : PVal} {date : List Nat}
    (hp : ∀ c s, p.receive.head? = some (.cc c s) → ¬(50 ≤ c ∧ c ≤ 54)) : (d.callback p v date).1.lastRig = d.lastRig := by
  have hk : ∀ (d : Device) k w, (d.setKey k w).1.lastRig = d.lastRig := by
    intro d k w
    unfold Device.setKey
    split
    · rfl
    · split <;> rfl
  have hset : ∀ (d : Device) n, (d.setRigId n date).1.lastRig = d.lastRig := by
    intro d n
    simp only [Device.setRigId, Device.updateRig, hk]
  unfold Device.callback
  split
  · rename_i c s hc
    rw [if_neg (hp c s hc)]
    split
    · unfold Device.onBank
      split
      · exact hset _ _
      · rfl
    · split
      · unfold Device.onBank
        split
        · exact hset _ _
        · rfl
      · split <;> rfl
  · split
    · simp only [Device.updateRig, hk]
    · rfl
  · rfl

theorem receive_last {d : Device} (hd : d.proto.productType = 2) {now : Int} {date msg : List Nat}
    (hp : ∀ q v, fired 2 d.params msg = some (q, v) → ∀ c s, q.receive.head? = some (.cc c s) → ¬(50 ≤ c ∧ c ≤ 54)) :
    (d.receive now date msg).1.lastRig = d.lastRig := by
  unfold Device.receive
  rw [hd]
  dsimp only
  split
  · rfl
  · split
    · rfl
    · rename_i q v hf
      exact callback_last (hp q v hf)

theorem receive_running {d : Device} (hd : d.proto.productType = 2) {now : Int} {date msg : List Nat}
    (hp : ∀ q v, fired 2 d.params msg = some (q, v) → ∀ s, q.receive.head? ≠ some (.cc 31 s)) :
    (d.receive now date msg).1.tunerRunning = d.tunerRunning := by
  unfold Device.receive
  rw [hd]
  dsimp only
  split
  · rfl
  · split
    · rfl
    · rename_i q v hf
      exact callback_tuner (hp q v hf)

/-- Parameters with the first key `cc c`, which are hit by a message with another controller, are hit by another key: only those with two or more keys. -/
theorem head_one : ∀ j : Fin 44, ∀ t ∈ T[j.val]?, (match t.receive.head? with
    | some (.cc c _) => (decide (c ≠ 80 ∧ ¬(50 ≤ c ∧ c ≤ 54)) || decide (t.receive.length = 1)) && decide (c = 31 → j.val = 31) && decide (c = 80 → j.val = 35)
    | _ => true) = true := by decide +kernel

/-- Which message calls the callback of a button. -/
theorem fired_button {d : Device} (h : Shape d.params) {msg : List Nat} {q : Param} {v : PVal} (hf : fired 2 d.params msg = some (q, v))
    {c : Nat} {s : Option Nat} (hc : q.receive.head? = some (.cc c s)) (hb : c = 80 ∨ (50 ≤ c ∧ c ≤ 54)) : msg.take 2 = [176, c] := by
  rcases fired_cases h hf with ⟨j, hj, hq, hhit, -⟩ | ⟨⟨k, e1, -, -⟩, hhit, -⟩
  · obtain ⟨q', hq', hsk⟩ := h.at hj
    rw [hq] at hq'
    simp only [Option.some.injEq] at hq'
    subst hq'
    have ht := head_one ⟨j, hj⟩ (skel q) hsk.symm
    simp only [skel, hc, Bool.and_eq_true, Bool.or_eq_true, decide_eq_true_eq] at ht
    have hl : q.receive.length = 1 := by
      rcases ht.1.1 with h1 | h1
      · omega
      · exact of_decide_eq_true h1
    match hr : q.receive, hl with
    | [k], _ =>
      rw [hr] at hc
      simp only [List.head?_cons, Option.some.injEq] at hc
      subst hc
      rw [Param.hit, hr, findSome_one] at hhit
      simp only [hitKey] at hhit
      split at hhit
      · assumption
      · simp at hhit
  · rw [e1] at hc
    simp only [List.head?_cons, Option.some.injEq] at hc
    subst hc
    rw [Param.hit, e1, findSome_one] at hhit
    simp only [hitKey] at hhit
    split at hhit
    · assumption
    · simp at hhit

/-! ### Morphing -/

def t35 : Param := skel (Setup.control 80)
theorem at35 : T[35]? = some t35 := rfl

/-- The device and the morphing. -/
structure Mor (m : Machine) (s : Morph) : Prop where
  view : View m.dev s.player
  state : val m.dev.params 34 = some (.num s.state)
  target : m.fadeTarget = s.target
  button : val m.dev.params 35 = some (.num s.button)
  rigButton : m.rigBtnMorph = s.rigButton
  last : m.dev.lastRig = s.chosen
  bug : m.morphBug = s.bug

theorem hit_35 (m : List Nat) : t35.hit 2 m = if m.take 2 = [176, 80] then some (.set (.num (m.getD 2 0))) else none := by
  have : t35.hit 2 m = hitKey 2 (.num 0) m (.cc 80 none) := by
    rw [Param.hit, show t35.receive = [.cc 80 none] from rfl, findSome_one]
    rfl
  rw [this]
  simp only [hitKey, Option.getD_none, Nat.mul_one]

theorem hit_34 (m : List Nat) : t34.hit 2 m = if m.take 2 = [176, 11] then some (.set (.num (m.getD 2 0 * 128)))
    else if m.take 10 = [240, 0, 32, 51, 2, 127, 65, 0, 0, 11] then some .request
    else if Sets 0 11 m then some (.set (evaluate (.num 0) (slice m 10 (m.length - 1)))) else none := by
  have e1 : t34.hit 2 m = (hitKey 2 (.num 0) m (.cc 11 (some 128))).or (hitKey 2 (.num 0) m (.nrpn [0, 11])) := by
    rw [Param.hit, show t34.receive = [.cc 11 (some 128), .nrpn [0, 11]] from rfl]
    simp only [List.findSome?]
    rw [show t34.value = .num 0 from rfl]
    cases hitKey 2 (.num 0) m (.cc 11 (some 128)) with
    | some b => rfl
    | none =>
      cases hitKey 2 (.num 0) m (.nrpn [0, 11]) <;> rfl
  rw [e1]
  have e2 : hitKey 2 (.num 0) m (.nrpn [0, 11]) = if m.take 10 = [240, 0, 32, 51, 2, 127, 65, 0, 0, 11] then some .request
    else if Sets 0 11 m then some (.set (evaluate (.num 0) (slice m 10 (m.length - 1)))) else none := rfl
  rw [e2]
  simp only [hitKey, Option.getD_some]
  split
  · rfl
  · rfl

theorem trigger_mor {m : Machine} {s : Morph} (h : Mor m s) : Mor m.trigger s.trigger := by
  unfold Machine.trigger Morph.trigger
  rw [h.bug]
  split
  · exact h
  · exact ⟨h.view, h.state, by rw [num_34 h.view.shape h.state], h.button, h.rigButton, h.last, rfl⟩

/-- Messages which are not for the morph button and the rig buttons. -/
theorem other_mor {m : Machine} {s : Morph} (h : Mor m s) (now : Int) (date : List Nat) {msg : List Nat} (hm : Midi msg)
    (h80 : msg.take 2 ≠ [176, 80]) (h50 : ∀ c, 50 ≤ c → c ≤ 54 → msg.take 2 ≠ [176, c]) {v : Nat}
    (hv : written (t34.hit 2 msg) (some (.num s.state)) = some (.num v)) :
    Mor (m.receive now date msg).1 { s with player := s.player.message msg, state := v } := by
  have hview := machine_view h.view now date hm
  have hd := receive_shape h.view now date hm
  have hcb : ∀ q w, fired 2 m.dev.params msg = some (q, w) → ∀ c k, q.receive.head? = some (.cc c k) → c ≠ 80 ∧ ¬(50 ≤ c ∧ c ≤ 54) := by
    intro q w hf c k hc
    constructor
    · rintro rfl; exact h80 (fired_button h.view.shape hf hc (.inl rfl))
    · intro hb; exact h50 c hb.1 hb.2 (fired_button h.view.shape hf hc (.inr hb))
  have h34 := receive_val' h.view now date hm (i := 34) (by decide) at34 (fun d' q w hs hf => callback_34 hs (fun c k hc => (hcb q w hf c k hc).2) w date)
  have h35 := receive_val h.view now date hm (i := 35) (by decide) at35
  rw [hit_35, if_neg h80, h.button] at h35
  rw [h.state, hv] at h34
  have hl := receive_last (now := now) (date := date) h.view.product (fun q w hf c k hc => (hcb q w hf c k hc).2)
  have hbase : Mor { m with dev := (m.dev.receive now date msg).1 } { s with player := s.player.message msg, state := v } :=
    ⟨hd, h34, h.target, h35, h.rigButton, hl.trans h.last, h.bug⟩
  unfold Machine.receive
  dsimp only
  split
  · exact hbase
  · rw [h.view.product]
    split
    · exact hbase
    · rename_i q w hf
      have a := after_aft (m := { m with dev := (m.dev.receive now date msg).1 }) hd.shape m.dev now q w
      have b := after_target (m := { m with dev := (m.dev.receive now date msg).1 }) hd.shape (before := m.dev) (now := now) (v := w) (hcb q w hf)
      exact ⟨a.view _ hd, a.v34.trans h34, b.trans h.target, (a.vals 35 t35 (by decide) at35 (by decide)).trans h35,
        a.rest.2.1.trans h.rigButton, a.last.trans (hl.trans h.last), a.rest.2.2.trans h.bug⟩

/-- The morph button. -/
theorem button_mor {m : Machine} {s : Morph} (h : Mor m s) (now : Int) (date : List Nat) (v : Nat) (hv : v < 128) :
    Mor (m.receive now date [176, 80, v]).1
      (if v = s.button then s else if v = 1 then { s with button := v }.trigger else { s with button := v }) := by
  have hm : Midi [176, 80, v] := .inl ⟨80, v, rfl, by decide, hv⟩
  have hd := receive_shape h.view now date hm
  have hpl : s.player.message [176, 80, v] = s.player := by simp [Player.message]
  rw [hpl] at hd
  obtain ⟨q, hq, hsk, hqv⟩ := place_param h.view.shape (i := 35) (by decide) at35 h.button
  have hhit : q.hit 2 [176, 80, v] = some (.set (.num v)) := by rw [← hit_skel, hsk, hit_35, if_pos (by simp)]; simp
  have hnb : q.noBuffer = false := congrArg Param.noBuffer hsk
  have hrec : q.receive.head? = some (.cc 80 none) := by
    have := congrArg Param.receive hsk
    rw [show q.receive = t35.receive from this]; rfl
  have hf := fired_own h.view.shape (by decide) hq hhit
  rw [fires_num hqv hnb] at hf
  have hcb : ∀ p w, fired 2 m.dev.params [176, 80, v] = some (p, w) → ∀ c k, p.receive.head? = some (.cc c k) → ¬(50 ≤ c ∧ c ≤ 54) := by
    intro p w hf' c k hc hb
    have := fired_button h.view.shape hf' hc (.inr hb)
    simp at this
    omega
  have h34 := receive_val' h.view now date hm (i := 34) (by decide) at34 (fun d' p w hs hf' => callback_34 hs (hcb p w hf') w date)
  have h35 := receive_val h.view now date hm (i := 35) (by decide) at35
  rw [hit_35, if_pos (by simp)] at h35
  rw [hit_34, if_neg (by simp), if_neg (by simp), if_neg (by simp [Sets])] at h34
  have hl := receive_last (now := now) (date := date) h.view.product hcb
  have hbase : Mor { m with dev := (m.dev.receive now date [176, 80, v]).1 } { s with button := v } :=
    ⟨hd, h34.trans h.state, h.target, by rw [h35]; simp [written], h.rigButton, hl.trans h.last, h.bug⟩
  unfold Machine.receive
  dsimp only
  rw [if_neg (by simp), h.view.product, hf]
  by_cases hvb : v = s.button
  · rw [if_pos hvb]
    have e : ({ s with button := v } : Morph) = s := by rw [hvb]
    rw [e] at hbase
    rw [if_neg (by simpa using hvb)]
    exact hbase
  · rw [if_neg hvb]
    rw [if_pos (by simpa using hvb)]
    simp only [Machine.after, hrec]
    rw [if_neg (by decide), if_pos trivial]
    by_cases h1 : v = 1
    · subst h1
      rw [if_pos rfl]
      exact trigger_mor hbase
    · rw [if_neg (by simpa using h1), if_neg h1]
      exact hbase

/-- A rig button which is pushed. -/
theorem onRig_morph {d : Device} {p : Player} (h : View d p) (s : Nat) (date : List Nat) {st : Nat} (hst : val d.params 34 = some (.num st)) (v : Nat) :
    let n := 5 * p.preselected.getD (p.rig / 5) + s
    val (d.onRig s (.num v) date).1.params 34 = some (.num (if v = 1 ∧ d.lastRig ≠ some n then 0 else st)) ∧
    val (d.onRig s (.num v) date).1.params 35 = val d.params 35 ∧
    (d.onRig s (.num v) date).1.lastRig = if v = 1 then some n else d.lastRig := by
  intro n
  have hid := h.rig.id h.shape
  refine ⟨?_, (onRig_keep h.shape s _ date).vals 35 (by decide), ?_⟩
  all_goals
    unfold Device.onRig
    simp only [hid, h.presel, PVal.num.injEq]
    have hn : p.preselected.getD (p.rig / 5) * 5 + s = n := by show _ = 5 * _ + s; omega
    rw [hn]
  · by_cases hv : v = 1
    · rw [if_pos hv]
      have hr := setRigId_eq (d := { d with presel := none }) h.shape n date
      generalize Device.setRigId { d with presel := none } n date = R at hr
      by_cases hl : d.lastRig = some n
      · rw [if_neg (by simpa using hl), if_neg (by simp [hl])]
        exact (hr.vals 34 (by decide) (by decide) (by decide) (by decide)).trans hst
      · rw [if_pos hl, if_pos ⟨hv, hl⟩]
        exact (Shape.setKey (d := R.1) hr.shape (key := .nrpn [0, 11]) (v := .num 0) (i := 34) (by decide) at34 rfl).2.1
    · rw [if_neg hv, if_neg (fun hx => hv hx.1)]
      exact hst
  · by_cases hv : v = 1
    · rw [if_pos hv, if_pos hv]
    · rw [if_neg hv, if_neg hv]

theorem press_mor {m : Machine} {s : Morph} (h : Mor m s) (now : Int) (date : List Nat) (i v : Nat) (hi : i < 5) (hv : v < 128) :
    Mor (m.receive now date [176, 50 + i, v]).1 (s.press i v) := by
  have hm : Midi [176, 50 + i, v] := .inl ⟨50 + i, v, rfl, by omega, hv⟩
  have hd := receive_shape h.view now date hm
  have hpl : s.player.message [176, 50 + i, v] = s.player.press i v := by
    simp only [Player.message]
    rw [if_neg (by omega), if_neg (by omega), if_neg (by omega), if_neg (by omega), if_pos (by omega), Nat.add_sub_cancel_left]
  rw [hpl] at hd
  have ht : T[20 + i]? = some { send := none, receive := [.cc (50 + i) none], value := .num 0, sets := [], noBuffer := false } := by
    rcases (by omega : i = 0 ∨ i = 1 ∨ i = 2 ∨ i = 3 ∨ i = 4) with rfl | rfl | rfl | rfl | rfl <;> rfl
  obtain ⟨n, hq⟩ := h.view.shape.rigParam (by omega) ht
  have hn : n = s.player.button i := by
    have := h.view.buttons i hi
    simp only [val, hq, Option.map_some, Option.some.injEq, PVal.num.injEq] at this
    exact this
  subst hn
  have hown := receive_own h.view now date (v := v) (by omega) (by omega) ht (by intro k hk; simp only [place] at hk; grind) hq
  have hhit : Param.hit 2 { send := none, receive := [.cc (50 + i) none], value := .num (s.player.button i), sets := [], noBuffer := false } [176, 50 + i, v] = some (.set (.num v)) := by
    rw [hit_cc]; simp
  have hf := fired_own h.view.shape (by omega) hq hhit
  rw [fires_num rfl rfl] at hf
  have happ : Param.apply m.dev.proto.parameterSet { send := none, receive := [.cc (50 + i) none], value := .num (s.player.button i), sets := [], noBuffer := false } (.set (.num v)) =
      ({ send := none, receive := [.cc (50 + i) none], value := .num v, sets := [], noBuffer := false }, []) := by
    by_cases hb : s.player.button i = v
    · simp [Param.apply, Param.setValue, hb]
    · simp [Param.apply, Param.setValue, hb]
  simp only at hown
  rw [happ, fires_num rfl rfl] at hown
  simp only at hown
  generalize hd' : ({ m.dev with params := m.dev.params.set (20 + i) { send := none, receive := [.cc (50 + i) none], value := .num v, sets := [], noBuffer := false } } : Device) = d' at hown
  have e34 : val d'.params 34 = some (.num s.state) := by
    rw [← hd']
    show val (m.dev.params.set _ _) 34 = _
    rw [val_set_ne (by omega)]; exact h.state
  have e35 : val d'.params 35 = some (.num s.button) := by
    rw [← hd']
    show val (m.dev.params.set _ _) 35 = _
    rw [val_set_ne (by omega)]; exact h.button
  have hmr : (m.receive now date [176, 50 + i, v]).1 = if v = s.player.button i then { m with dev := (m.dev.receive now date [176, 50 + i, v]).1 }
      else if v = 1 ∧ m.rigBtnMorph ∧ (m.dev.receive now date [176, 50 + i, v]).1.lastRig = m.dev.lastRig then
        ({ m with dev := (m.dev.receive now date [176, 50 + i, v]).1 } : Machine).trigger
      else { m with dev := (m.dev.receive now date [176, 50 + i, v]).1 } := by
    unfold Machine.receive
    dsimp only
    rw [if_neg (by simp; omega), h.view.product, hf]
    by_cases hb : v = s.player.button i
    · rw [if_pos hb, if_neg (by simpa using hb)]
    · rw [if_neg hb, if_pos (by simpa using hb)]
      simp only [Machine.after, List.head?_cons]
      rw [if_neg (by omega), if_neg (by omega)]
      by_cases hx : v = 1 ∧ m.rigBtnMorph ∧ (m.dev.receive now date [176, 50 + i, v]).1.lastRig = m.dev.lastRig
      · rw [if_pos hx, if_pos ⟨by omega, by omega, by rw [hx.1], hx.2⟩]
      · rw [if_neg hx, if_neg (fun hy => hx ⟨by simpa using hy.2.2.1, hy.2.2.2⟩)]
  by_cases hb : s.player.button i = v
  · -- nothing new
    have hp : s.press i v = { s with player := s.player.press i v } := by
      unfold Morph.press
      dsimp only
      rw [if_neg (fun hx => hx.1.1 hb), if_neg (fun hx => hx.1.1 hb)]
    rw [hp, hmr, if_pos hb.symm]
    rw [if_neg (by simpa using Eq.symm hb)] at hown
    refine ⟨hd, ?_, h.target, ?_, h.rigButton, ?_, h.bug⟩
    · show val (m.dev.receive now date [176, 50 + i, v]).1.params 34 = _
      rw [hown]; exact e34
    · show val (m.dev.receive now date [176, 50 + i, v]).1.params 35 = _
      rw [hown]; exact e35
    · show (m.dev.receive now date [176, 50 + i, v]).1.lastRig = _
      rw [hown, ← hd']; exact h.last
  · have hvb : ¬v = s.player.button i := fun hx => hb hx.symm
    rw [if_pos (by simpa using hvb)] at hown
    have hcall : Device.callback d' { send := none, receive := [.cc (50 + i) none], value := .num (s.player.button i), sets := [], noBuffer := false } (.num v) date =
        d'.onRig i (.num v) date := by
      simp only [Device.callback, List.head?_cons]
      rw [if_pos (by omega), Nat.add_sub_cancel_left]
    rw [hcall] at hown
    have hview' : View d' { s.player with button := fun k => if k = i then v else s.player.button k } := by
      rw [← hd']
      refine ⟨h.view.product, h.view.shape.set hq rfl, ⟨?_, ?_⟩, ?_, h.view.presel⟩
      · show val (m.dev.params.set _ _) 18 = _
        rw [val_set_ne (by omega)]; exact h.view.rig.hi
      · show val (m.dev.params.set _ _) 19 = _
        rw [val_set_ne (by omega)]; exact h.view.rig.lo
      · intro k hk
        show val (m.dev.params.set _ _) _ = _
        by_cases his : k = i
        · subst his
          rw [val_set_self hq]
          simp
        · rw [val_set_ne (by omega)]
          simp only [if_neg his]
          exact h.view.buttons k hk
    obtain ⟨o1, o2, o3⟩ := onRig_morph hview' i date e34 v
    have hl' : d'.lastRig = s.chosen := by rw [← hd']; exact h.last
    rw [hl'] at o1 o3
    dsimp only at o1 o3
    have hrig : v = 1 → (s.player.press i v).rig = 5 * s.player.preselected.getD (s.player.rig / 5) + i := by
      intro h1
      simp only [Player.press, if_neg hb, if_pos h1]
    have hR : (m.dev.receive now date [176, 50 + i, v]).1 = (d'.onRig i (.num v) date).1 := by rw [hown]
    have f34 := o1
    rw [← hR] at f34
    have f35 := o2.trans e35
    rw [← hR] at f35
    have fl := o3
    rw [← hR] at fl
    rw [hmr, if_neg hvb]
    by_cases h1 : v = 1
    · rw [if_pos h1] at fl
      have hr := hrig h1
      by_cases hc : s.chosen = some (s.player.press i v).rig
      · -- the same rig
        rw [if_neg (fun hx => hx.2 (by rw [hc, hr]))] at f34
        have hlast : (m.dev.receive now date [176, 50 + i, v]).1.lastRig = m.dev.lastRig := by rw [fl, h.last, hc, hr]
        have hbase : Mor { m with dev := (m.dev.receive now date [176, 50 + i, v]).1 } { s with player := s.player.press i v } :=
          ⟨hd, f34, h.target, f35, h.rigButton, by show (m.dev.receive now date [176, 50 + i, v]).1.lastRig = _; rw [hlast]; exact h.last, h.bug⟩
        by_cases hrb : s.rigButton = true
        · have hp : s.press i v = Morph.trigger { s with player := s.player.press i v } := by
            unfold Morph.press
            dsimp only
            rw [if_neg (fun hx => hx.2 hc), if_pos ⟨⟨hb, h1⟩, hrb⟩]
          rw [hp, if_pos ⟨h1, by rw [h.rigButton]; exact hrb, hlast⟩]
          exact trigger_mor hbase
        · have hp : s.press i v = { s with player := s.player.press i v } := by
            unfold Morph.press
            dsimp only
            rw [if_neg (fun hx => hx.2 hc), if_neg (fun hx => hrb hx.2)]
          rw [hp, if_neg (fun hx => hrb (by rw [← h.rigButton]; exact hx.2.1))]
          exact hbase
      · -- another rig
        have hp : s.press i v = { s with player := s.player.press i v, state := 0, chosen := some (s.player.press i v).rig } := by
          unfold Morph.press
          dsimp only
          rw [if_pos ⟨⟨hb, h1⟩, hc⟩]
        rw [if_pos ⟨h1, by rw [← hr]; exact hc⟩] at f34
        rw [hp, if_neg (by
          rintro ⟨-, -, hx⟩
          apply hc
          rw [fl, h.last, ← hr] at hx
          exact hx.symm)]
        exact ⟨hd, f34, h.target, f35, h.rigButton, by show (m.dev.receive now date [176, 50 + i, v]).1.lastRig = _; rw [fl, ← hr], h.bug⟩
    · have hp : s.press i v = { s with player := s.player.press i v } := by
        unfold Morph.press
        dsimp only
        rw [if_neg (fun hx => h1 hx.1.2), if_neg (fun hx => h1 hx.1.2)]
      rw [hp, if_neg (fun hx => h1 hx.1)]
      rw [if_neg (fun hx => h1 hx.1)] at f34
      rw [if_neg h1] at fl
      exact ⟨hd, f34, h.target, f35, h.rigButton, fl.trans rfl, h.bug⟩

theorem message_mor {m : Machine} {s : Morph} (h : Mor m s) (now : Int) (date : List Nat) {msg : List Nat} (hm : Midi msg)
    (hl : Sets 0 11 msg → msg.length = 13) : Mor (m.receive now date msg).1 (s.message msg) := by
  have hcc : ∀ {c v : Nat} {x : List Nat}, ¬Sets 0 11 (176 :: c :: v :: x) := by intro c v x hx; simp [Sets] at hx
  rcases hm with ⟨c, v, rfl, hc, hv⟩ | ⟨v, rfl, hv⟩ | h240
  · have hm : Midi [176, c, v] := .inl ⟨c, v, rfl, hc, hv⟩
    by_cases h11 : c = 11
    · subst h11
      have := other_mor h now date hm (by simp) (by intro c _ _; simp; omega) (v := 128 * v) (by
        rw [hit_34, if_pos (by simp)]; simp [written, Nat.mul_comm])
      have e : s.player.message [176, 11, v] = s.player := by simp [Player.message]
      rw [e] at this
      exact this
    · by_cases h80 : c = 80
      · subst h80
        exact button_mor h now date v hv
      · have e : s.message [176, c, v] = if 50 ≤ c ∧ c ≤ 54 then s.press (c - 50) v else { s with player := s.player.message [176, c, v] } := by
          unfold Morph.message
          split
          · rename_i heq; simp at heq; omega
          · rename_i heq; simp at heq; omega
          · rename_i heq; simp at heq; obtain ⟨rfl, rfl⟩ := heq; rfl
          · rename_i hx; exact absurd rfl (hx c v)
        rw [e]
        by_cases hb : 50 ≤ c ∧ c ≤ 54
        · rw [if_pos hb]
          obtain ⟨i, rfl⟩ : ∃ i, c = 50 + i := ⟨c - 50, by omega⟩
          rw [Nat.add_sub_cancel_left]
          exact press_mor h now date i v (by omega) hv
        · rw [if_neg hb]
          have := other_mor h now date hm (by simpa using h80) (by intro x _ _; simp; omega) (v := s.state) (by
            rw [hit_34, if_neg (by simpa using h11), if_neg (by simp), if_neg hcc]; rfl)
          exact this
  · have hm : Midi [192, v] := .inr (.inl ⟨v, rfl, hv⟩)
    have := other_mor h now date hm (by simp) (by intro x _ _; simp) (v := s.state) (by
      rw [hit_34, if_neg (by simp), if_neg (by simp), if_neg (by simp [Sets])]; rfl)
    exact this
  · have hm : Midi msg := .inr (.inr h240)
    have hne : ∀ x, msg.take 2 ≠ [176, x] := by
      intro x hx
      cases msg with
      | nil => simp at hx
      | cons a msg => simp at hx h240; omega
    have e : s.message msg = if Sets 0 11 msg then { s with state := msg.getD 10 0 * 128 + msg.getD 11 0 } else { s with player := s.player.message msg } := by
      unfold Morph.message
      split
      · simp at h240
      · simp at h240
      · simp at h240
      · rfl
    have ep : s.player.message msg = s.player := by
      unfold Player.message
      split
      · simp at h240
      · simp at h240
      · rfl
    rw [e]
    by_cases hs : Sets 0 11 msg
    · rw [if_pos hs]
      have := other_mor h now date hm (hne 80) (fun c _ _ => hne c) (v := msg.getD 10 0 * 128 + msg.getD 11 0) (by
        rw [hit_34, if_neg (hne 11), if_neg (by intro hx; simp only [Sets] at hs; rw [hs] at hx; simp at hx), if_pos hs, set_value hs (hl hs)]; rfl)
      rw [ep] at this
      exact this
    · rw [if_neg hs]
      have := other_mor h now date hm (hne 80) (fun c _ _ => hne c) (v := s.state) (by
        rw [hit_34, if_neg (hne 11), if_neg hs]; split <;> rfl)
      exact this

theorem fade_towards (v t : Nat) : fade v t = towards v t := by
  simp only [fade, towards]
  split <;> split <;> omega

theorem update_mor {m : Machine} {s : Morph} (h : Mor m s) (now : Int) : Mor (m.update now).1 s.update := by
  have u := upd_frame ⟨_, h.view⟩ now
  have hbeat : ∀ (m1 : Machine) (p : Player), View m1.dev p → val (m1.beat now).1.dev.params 34 = val m1.dev.params 34 ∧ Shape (m1.beat now).1.dev.params ∧
      (m1.beat now).1.fadeTarget = m1.fadeTarget ∧ (m1.beat now).1.dev.lastRig = m1.dev.lastRig := by
    intro m1 p hv1
    have h1 := hv1.shape
    unfold Machine.beat
    split
    · exact ⟨rfl, h1, rfl, rfl⟩
    · split
      · obtain ⟨ps, hps⟩ := ui_rest h1 [] (page := 124) (number := 0) (.num (if m1.dev.num (.nrpn [124, 0]) = 0 then 1 else 0)) (by decide) at28
          (.inl ⟨[124, 0], rfl, by decide⟩)
        refine ⟨by rw [ui_34 h1, if_neg (by simp)], ?_, rfl, by simp only [hps]⟩
        exact (ui_view hv1 _ _ _ _).shape
      · exact ⟨rfl, h1, rfl, rfl⟩
  have htune : ∀ m1 : Machine, (m1.tune now).1.dev = m1.dev ∧ (m1.tune now).1.fadeTarget = m1.fadeTarget := by
    intro m1
    have ht : m1.dev.tuner.1 = m1.dev := by
      unfold Device.tuner
      split <;> rfl
    unfold Machine.tune
    by_cases hr : m1.dev.tunerRunning = true
    · rw [if_pos hr]
      dsimp only
      by_cases he : (m1.tunerPeriod.exceeded now).1 = true
      · rw [if_pos he]; exact ⟨ht, rfl⟩
      · rw [if_neg he]; exact ⟨rfl, rfl⟩
    · rw [if_neg hr]; exact ⟨rfl, rfl⟩
  obtain ⟨b1, b2, b3, b4⟩ := hbeat { m with dev := (m.dev.update now).1 } _ (any_step (e := .update now) h.view trivial).1
  obtain ⟨c1, c2⟩ := htune (Machine.beat { m with dev := (m.dev.update now).1 } now).1
  have e : (m.update now).1 = ((Machine.beat { m with dev := (m.dev.update now).1 } now).1.tune now).1.morph.1 := rfl
  have e34 : val ((Machine.beat { m with dev := (m.dev.update now).1 } now).1.tune now).1.dev.params 34 = some (.num s.state) := by
    rw [c1, b1]; exact h.state
  have et : ((Machine.beat { m with dev := (m.dev.update now).1 } now).1.tune now).1.fadeTarget = s.target := by
    rw [c2, b3]; exact h.target
  have esh : Shape ((Machine.beat { m with dev := (m.dev.update now).1 } now).1.tune now).1.dev.params := by rw [c1]; exact b2
  have el : ((Machine.beat { m with dev := (m.dev.update now).1 } now).1.tune now).1.dev.lastRig = s.chosen := by
    rw [c1, b4]; exact h.last
  have key : val (m.update now).1.dev.params 34 = some (.num s.update.state) ∧ (m.update now).1.fadeTarget = s.update.target ∧ (m.update now).1.dev.lastRig = s.chosen := by
    rw [e]
    generalize ((Machine.beat { m with dev := (m.dev.update now).1 } now).1.tune now).1 = m1 at e34 et esh el
    unfold Machine.morph Morph.update
    rw [et]
    cases ht : s.target with
    | none => exact ⟨e34, et.trans rfl, el⟩
    | some t =>
      simp only [num_34 esh e34]
      by_cases hst : s.state = t
      · rw [if_pos hst, if_pos hst]
        exact ⟨e34, rfl, el⟩
      · rw [if_neg hst, if_neg hst, fade_towards]
        obtain ⟨ps, hps⟩ := ui_rest esh [] (page := 0) (number := 11) (.num (towards s.state t)) (i := 34) (by decide) at34 (.inr ⟨some 128, rfl⟩)
        refine ⟨?_, rfl, by simp only [hps]; exact el⟩
        show val (m1.dev.ui [] (.value 0 11 (.num (towards s.state t)))).1.params 34 = _
        rw [ui_34 esh, if_pos ⟨rfl, rfl⟩]
  have hsame : s.update.player = s.player ∧ s.update.button = s.button ∧ s.update.rigButton = s.rigButton ∧ s.update.chosen = s.chosen ∧ s.update.bug = s.bug := by
    unfold Morph.update
    split
    · exact ⟨rfl, rfl, rfl, rfl, rfl⟩
    · split <;> exact ⟨rfl, rfl, rfl, rfl, rfl⟩
  obtain ⟨s1, s2, s3, s4, s5⟩ := hsame
  refine ⟨by rw [s1]; exact u.view _ h.view, key.1, key.2.1, ?_, ?_, by rw [s4]; exact key.2.2, ?_⟩
  · rw [s2, u.vals 35 t35 (by decide) at35 (by decide)]; exact h.button
  · rw [s3, u.rest.1]; exact h.rigButton
  · rw [s5, u.rest.2]; exact h.bug

theorem use_mor {m : Machine} {s : Morph} (h : Mor m s) (now : Int) (date : List Nat) (u : Use) : Mor (m.use now date u).1 (s.step (.use now date u)) := by
  cases u with
  | tempo b =>
    have hb := setTempo_bpm (m := m) h.view.shape now b
    have a := hb.aft
    exact ⟨a.view _ h.view, a.v34.trans h.state, hb.target.trans h.target, (a.vals 35 t35 (by decide) at35 (by decide)).trans h.button,
      a.rest.2.1.trans h.rigButton, a.last.trans h.last, a.rest.2.2.trans h.bug⟩
  | rigButton on => exact ⟨h.view, h.state, h.target, h.button, rfl, h.last, h.bug⟩
  | dev e =>
    cases e with
    | rig n =>
      have r := setRigId_eq h.view.shape n date
      refine ⟨(setRigId_view h.view n date).1, ?_, h.target, ?_, h.rigButton, r.lastRig.trans h.last, h.bug⟩
      · exact (r.vals 34 (by decide) (by decide) (by decide) (by decide)).trans h.state
      · exact (r.vals 35 (by decide) (by decide) (by decide) (by decide)).trans h.button
    | value page number v =>
      have hview := ui_view h.view date page number v
      have h34 := ui_34 h.view.shape date page number v
      have h35 : val (m.dev.ui date (.value page number v)).1.params 35 = val m.dev.params 35 :=
        ui_other h.view.shape _ _ _ _ (by decide) at35 (by simp [t35, skel, Setup.control])
      have hl : (m.dev.ui date (.value page number v)).1.lastRig = m.dev.lastRig := by
        have hk : ∀ (d : Device) k w, (d.setKey k w).1.lastRig = d.lastRig := by
          intro d k w
          unfold Device.setKey
          split
          · rfl
          · split <;> rfl
        simp only [Device.ui]
        split
        · rfl
        · rename_i q hf
          split
          · rw [callback_last (fun c k hc => by have := ui_head h.view.shape hf c k hc; omega), hk]
          · exact hk _ _ _
      obtain ⟨st, hst, hstep⟩ : ∃ st, val (m.dev.ui date (.value page number v)).1.params 34 = some (.num st) ∧
          s.step (.use now date (.dev (.value page number v))) = { s with state := st } := by
        by_cases hp : (page, number) = (0, 11)
        · simp only [Prod.mk.injEq] at hp
          obtain ⟨rfl, rfl⟩ := hp
          cases v with
          | num n => exact ⟨n, by rw [h34, if_pos ⟨rfl, rfl⟩], rfl⟩
          | str x => exact ⟨s.state, by rw [h34, if_neg (by simp [kind, t34, skel, nrpn, zero])]; exact h.state, rfl⟩
        · refine ⟨s.state, by rw [h34, if_neg (fun hx => hp hx.1)]; exact h.state, ?_⟩
          simp only [Morph.step]
          split
          · rename_i heq; simp at heq
          · rename_i heq; simp at heq
          · rename_i heq; simp at heq
          · rename_i heq; simp at heq
          · rename_i heq; simp at heq; exact absurd (by simp [heq]) hp
          · rfl
      rw [hstep]
      have hbase : Mor { m with dev := (m.dev.ui date (.value page number v)).1 } { s with state := st } :=
        ⟨hview, hst, h.target, h35.trans h.button, h.rigButton, hl.trans h.last, h.bug⟩
      simp only [Machine.use]
      split
      · exact hbase
      · rename_i q hf
        split
        · have a := after_aft (m := { m with dev := (m.dev.ui date (.value page number v)).1 }) hview.shape m.dev now q v
          have b := after_target (m := { m with dev := (m.dev.ui date (.value page number v)).1 }) hview.shape (before := m.dev) (now := now) (v := v)
            (fun c k hc => by have := ui_head h.view.shape hf c k hc; omega)
          exact ⟨a.view _ hview, a.v34.trans hst, b.trans h.target, (a.vals 35 t35 (by decide) at35 (by decide)).trans (h35.trans h.button),
            a.rest.2.1.trans h.rigButton, a.last.trans (hl.trans h.last), a.rest.2.2.trans h.bug⟩
        · exact hbase

theorem step_mor {m : Machine} {s : Morph} (h : Mor m s) {e : Ev} (he : Complete e) : Mor (m.step e).1 (s.step e) := by
  cases e with
  | receive now date msg => exact message_mor h now date he.1 (fun hs => he.2 (.inr hs))
  | update now => exact update_mor h now
  | use now date u => exact use_mor h now date u

theorem run_mor {m : Machine} {s : Morph} (h : Mor m s) (es : List Ev) (he : ∀ e ∈ es, Complete e) : Mor (m.run es).1 (es.foldl Morph.step s) := by
  induction es generalizing m s with
  | nil => exact h
  | cons e es ih => exact ih (step_mor h (he e (by simp))) fun e' h' => he e' (by simp [h'])

theorem initial_mor (bug : Bool) (now : Int) (date : List Nat) : Mor (initial bug now date) { bug } := by
  have hsh : Shape (table date) := by
    constructor
    · rfl
    · intro i e hi he
      have := (List.getElem?_eq_some_iff.1 he).1
      have hl : (table date).length = 44 := rfl
      rw [hl] at this
      omega
  obtain ⟨hs, -, -, hl⟩ := updateRig_same (d := { proto := Virtual.initial 2 now, params := table date }) hsh date
  exact ⟨view_initial now date, hs.vals 34 (by decide) (by decide), rfl, hs.vals 35 (by decide) (by decide), rfl, hl, rfl⟩

/-! ### The tuner -/

def t32 : Param := skel (nrpn 125 84 (.num 0) [] allSets)
def t33 : Param := skel (nrpn 124 15 (.num 8191) [] allSets)
theorem at32 : T[32]? = some t32 := rfl
theorem at33 : T[33]? = some t33 := rfl

/-- The device and the tuner. -/
structure Tun (m : Machine) (t : Tuner) : Prop where
  view : ∃ p, View m.dev p
  mode : val m.dev.params 31 = some (.num t.mode)
  running : m.dev.tunerRunning = decide (t.mode = 1)
  period : m.tunerPeriod = ⟨20, t.last⟩

theorem hit_31 (m : List Nat) : t31.hit 2 m = if m.take 2 = [176, 31] then some (.set (.num (m.getD 2 0)))
    else if m.take 10 = [240, 0, 32, 51, 2, 127, 65, 0, 127, 126] then some .request
    else if Sets 127 126 m then some (.set (evaluate (.num 0) (slice m 10 (m.length - 1)))) else none := by
  have e1 : t31.hit 2 m = (hitKey 2 (.num 0) m (.cc 31 none)).or (hitKey 2 (.num 0) m (.nrpn [127, 126])) := by
    rw [Param.hit, show t31.receive = [.cc 31 none, .nrpn [127, 126]] from rfl]
    simp only [List.findSome?]
    rw [show t31.value = .num 0 from rfl]
    cases hitKey 2 (.num 0) m (.cc 31 none) with
    | some b => rfl
    | none =>
      cases hitKey 2 (.num 0) m (.nrpn [127, 126]) <;> rfl
  rw [e1]
  have e2 : hitKey 2 (.num 0) m (.nrpn [127, 126]) = if m.take 10 = [240, 0, 32, 51, 2, 127, 65, 0, 127, 126] then some .request
    else if Sets 127 126 m then some (.set (evaluate (.num 0) (slice m 10 (m.length - 1)))) else none := rfl
  rw [e2]
  simp only [hitKey, Option.getD_none, Nat.mul_one]
  split
  · rfl
  · rfl

/-- The parameter with the callback of the tuner. -/
theorem fired_31 {d : Device} (h : Shape d.params) {msg : List Nat} {q : Param} {v : PVal} (hf : fired 2 d.params msg = some (q, v))
    {s : Option Nat} (hc : q.receive.head? = some (.cc 31 s)) : d.params[31]? = some q ∧ q.hit 2 msg = some (.set v) ∧ fires q v = true := by
  rcases fired_cases h hf with ⟨j, hj, hq, hhit, hfi⟩ | ⟨⟨k, e1, -, -⟩, hhit, hno⟩
  · obtain ⟨q', hq', hsk⟩ := h.at hj
    rw [hq] at hq'
    simp only [Option.some.injEq] at hq'
    subst hq'
    have ht := head_one ⟨j, hj⟩ (skel q) hsk.symm
    simp only [skel, hc, Bool.and_eq_true, decide_eq_true_eq] at ht
    have := ht.1.2 trivial
    subst this
    exact ⟨hq, hhit, hfi⟩
  · exfalso
    rw [e1] at hc
    simp only [List.head?_cons, Option.some.injEq] at hc
    subst hc
    rw [Param.hit, e1, findSome_one] at hhit
    have htake : msg.take 2 = [176, 31] := by
      simp only [hitKey] at hhit
      split at hhit
      · assumption
      · simp at hhit
    obtain ⟨q', hq', hsk⟩ := h.at (i := 31) (by decide)
    rw [at31] at hsk
    simp only [Option.some.injEq] at hsk
    have := hno 31 q' (by decide) hq'
    rw [← hit_skel, hsk, hit_31, if_pos htake] at this
    simp at this

theorem param_31 {d : Device} (h : Shape d.params) {n : Nat} (hv : val d.params 31 = some (.num n)) :
    ∃ q, d.params[31]? = some q ∧ skel q = t31 ∧ q.value = .num n ∧ q.noBuffer = false ∧ q.receive.head? = some (.cc 31 none) := by
  obtain ⟨q, hq, hsk, hqv⟩ := place_param h (i := 31) (by decide) at31 hv
  refine ⟨q, hq, hsk, hqv, ?_, ?_⟩
  · exact congrArg Param.noBuffer hsk
  · have := congrArg Param.receive hsk
    rw [show q.receive = t31.receive from this]; rfl

theorem message_tun {m : Machine} {t : Tuner} (h : Tun m t) (now : Int) (date : List Nat) {msg : List Nat} (hm : Midi msg)
    (hl : Sets 127 126 msg → msg.length = 13) : Tun (m.receive now date msg).1 (t.step (.receive now date msg)) := by
  obtain ⟨p, hp⟩ := h.view
  have hd := receive_shape hp now date hm
  have h31 := receive_val hp now date hm (i := 31) (by decide) at31
  have base : ∀ n, val (m.dev.receive now date msg).1.params 31 = some (.num n) → (m.dev.receive now date msg).1.tunerRunning = decide (n = 1) →
      Tun (m.receive now date msg).1 { t with mode := n } := by
    intro n h1 h2
    unfold Machine.receive
    dsimp only
    split
    · exact ⟨⟨_, hd⟩, h1, h2, h.period⟩
    · split
      · exact ⟨⟨_, hd⟩, h1, h2, h.period⟩
      · rename_i q w hf
        have a := after_aft (m := { m with dev := (m.dev.receive now date msg).1 }) hd.shape m.dev now q w
        exact ⟨⟨_, a.view _ hd⟩, (a.vals 31 t31 (by decide) at31 (by decide)).trans h1, a.running.trans h2, a.rest.1.trans h.period⟩
  obtain ⟨q, hq, hsk, hqv, hnb, hrec⟩ := param_31 hp.shape h.mode
  have hset : ∀ n, t31.hit 2 msg = some (.set (.num n)) → Tun (m.receive now date msg).1 { t with mode := n } := by
    intro n hn
    rw [hn] at h31
    refine base n h31 ?_
    have hhit : q.hit 2 msg = some (.set (.num n)) := by rw [← hit_skel, hsk]; exact hn
    have hf := fired_own hp.shape (by decide) hq hhit
    rw [fires_num hqv hnb] at hf
    have h47 : msg.take 2 ≠ [176, 47] := by
      intro hx
      have := hit_31 msg
      rw [if_neg (by rw [hx]; simp), hn] at this
      cases msg with
      | nil => simp at hx
      | cons a msg =>
        simp at hx
        rw [if_neg (by simp [hx.1]), if_neg (by simp [Sets, hx.1])] at this
        simp at this
    by_cases hv : n = t.mode
    · rw [if_neg (by simpa using hv)] at hf
      rw [receive_running hp.product (fun _ _ hx => by rw [hf] at hx; simp at hx), h.running, hv]
    · rw [if_pos (by simpa using hv)] at hf
      simp only [Device.receive, if_neg h47, hp.product, hf]
      simp [Device.callback, hrec]
  by_cases hc : msg.take 2 = [176, 31]
  · have e : t.step (.receive now date msg) = { t with mode := msg.getD 2 0 } := by simp only [Tuner.step, if_pos hc]
    rw [e]
    exact hset _ (by rw [hit_31, if_pos hc])
  · by_cases hs : Sets 127 126 msg
    · have e : t.step (.receive now date msg) = { t with mode := msg.getD 10 0 * 128 + msg.getD 11 0 } := by simp only [Tuner.step, if_neg hc, if_pos hs]
      rw [e]
      refine hset _ ?_
      rw [hit_31, if_neg hc, if_neg (by intro hx; simp only [Sets] at hs; rw [hs] at hx; simp at hx), if_pos hs, set_value hs (hl hs)]
    · have e : t.step (.receive now date msg) = { t with mode := t.mode } := by simp only [Tuner.step, if_neg hc, if_neg hs]
      rw [e]
      have hno : ∀ v, t31.hit 2 msg ≠ some (.set v) := by
        intro v
        rw [hit_31, if_neg hc, if_neg hs]
        split <;> simp
      refine base t.mode ?_ ?_
      · rw [h31, ← h.mode]
        cases hx : t31.hit 2 msg with
        | none => rfl
        | some x =>
          cases x with
          | request => rfl
          | set v => exact absurd hx (hno v)
      · rw [receive_running hp.product, h.running]
        intro q' v hf s hcc
        obtain ⟨g1, g2, -⟩ := fired_31 hp.shape hf hcc
        rw [hq] at g1
        simp only [Option.some.injEq] at g1
        subst g1
        rw [← hit_skel, hsk] at g2
        exact hno v g2

theorem use_tun {m : Machine} {t : Tuner} (h : Tun m t) (now : Int) (date : List Nat) (u : Use) : Tun (m.use now date u).1 (t.step (.use now date u)) := by
  obtain ⟨p, hp⟩ := h.view
  have hk : ∀ (d : Device) k w, (d.setKey k w).1.tunerRunning = d.tunerRunning := by
    intro d k w
    unfold Device.setKey
    split
    · rfl
    · split <;> rfl
  cases u with
  | tempo b =>
    have hb := setTempo_bpm (m := m) hp.shape now b
    have a := hb.aft
    exact ⟨⟨_, a.view _ hp⟩, (a.vals 31 t31 (by decide) at31 (by decide)).trans h.mode, a.running.trans h.running, a.rest.1.trans h.period⟩
  | rigButton on => exact ⟨h.view, h.mode, h.running, h.period⟩
  | dev e =>
    cases e with
    | rig n =>
      have r := setRigId_eq hp.shape n date
      refine ⟨⟨_, (setRigId_view hp n date).1⟩, ?_, ?_, h.period⟩
      · exact (r.vals 31 (by decide) (by decide) (by decide) (by decide)).trans h.mode
      · show (m.dev.setRigId n date).1.tunerRunning = _
        simp only [Device.setRigId, Device.updateRig, hk]
        exact h.running
    | value page number v =>
      have hview := ui_view hp date page number v
      have h31 := ui_val hp.shape date page number v (i := 31) (by decide) at31
      have hsend : (t31.send = some (.nrpn [page, number])) ↔ ((page, number) = (127, 126)) := by
        simp [t31, skel, nrpn, eq_comm]
      simp only [hsend] at h31
      obtain ⟨q31, hq31, hsk31, hqv31, hnb31, hrec31⟩ := param_31 hp.shape h.mode
      obtain ⟨n, hn, hrun, hstep⟩ : ∃ n, val (m.dev.ui date (.value page number v)).1.params 31 = some (.num n) ∧
          (m.dev.ui date (.value page number v)).1.tunerRunning = decide (n = 1) ∧
          t.step (.use now date (.dev (.value page number v))) = { t with mode := n } := by
        by_cases hpn : (page, number) = (127, 126)
        · simp only [Prod.mk.injEq] at hpn
          obtain ⟨rfl, rfl⟩ := hpn
          obtain ⟨-, -, q, hq, -, -, hf⟩ := hp.shape.sent (key := .nrpn [127, 126]) (i := 31) (by decide)
          rw [hq31] at hq
          simp only [Option.some.injEq] at hq
          subst hq
          cases v with
          | num n =>
            refine ⟨n, by rw [h31, if_pos ⟨rfl, rfl⟩], ?_, rfl⟩
            simp only [Device.ui, hf, fires_num hqv31 hnb31]
            by_cases hv : n = t.mode
            · rw [if_neg (by simpa using hv), hk, h.running, hv]
            · rw [if_pos (by simpa using hv)]
              simp [Device.callback, hrec31]
          | str x =>
            refine ⟨t.mode, by rw [h31, if_neg (by simp [kind, t31, skel, nrpn, zero])]; exact h.mode, ?_, rfl⟩
            have : fires q31 (.str x) = false := by simp [fires, hqv31]
            simp only [Device.ui, hf, this]
            rw [if_neg (by simp), hk, h.running]
        · refine ⟨t.mode, by rw [h31, if_neg (fun hx => hpn hx.1)]; exact h.mode, ?_, ?_⟩
          · rw [← h.running]
            simp only [Device.ui]
            split
            · rfl
            · rename_i q hf
              split
              · rw [callback_tuner, hk]
                intro s hc
                obtain ⟨g1, j, hj, hjq, -⟩ := List.find?_eq_some_iff_getElem.1 hf
                have hq : m.dev.params[j]? = some q := by rw [List.getElem?_eq_getElem hj, hjq]
                have g1 : q.send = some (.nrpn [page, number]) := by simpa using g1
                by_cases h44 : j < 44
                · obtain ⟨q', hq', hs⟩ := hp.shape.at h44
                  rw [hq] at hq'
                  simp only [Option.some.injEq] at hq'
                  subst hq'
                  have ht := head_one ⟨j, h44⟩ (skel q) hs.symm
                  simp only [skel, hc, Bool.and_eq_true, decide_eq_true_eq] at ht
                  have := ht.1.2 trivial
                  subst this
                  rw [hq31] at hq
                  simp only [Option.some.injEq] at hq
                  subst hq
                  have := congrArg Param.send hsk31
                  have : q31.send = t31.send := this
                  rw [this] at g1
                  exact hpn (hsend.1 g1)
                · obtain ⟨k, e1, e2, -⟩ := hp.shape.extra j q (by omega) hq
                  rw [e1] at hc
                  simp only [List.head?_cons, Option.some.injEq] at hc
                  rw [e2, hc] at g1
                  simp at g1
              · exact hk _ _ _
          · simp only [Tuner.step]
            split
            · rename_i heq; simp at heq
            · rename_i heq; simp at heq
            · rename_i heq; simp at heq; exact absurd (by simp [heq]) hpn
            · rfl
      rw [hstep]
      have hbase : Tun { m with dev := (m.dev.ui date (.value page number v)).1 } { t with mode := n } := ⟨⟨p, hview⟩, hn, hrun, h.period⟩
      simp only [Machine.use]
      split
      · exact hbase
      · rename_i q hf
        split
        · have a := after_aft (m := { m with dev := (m.dev.ui date (.value page number v)).1 }) hview.shape m.dev now q v
          exact ⟨⟨_, a.view _ hview⟩, (a.vals 31 t31 (by decide) at31 (by decide)).trans hn, a.running.trans hrun, a.rest.1.trans h.period⟩
        · exact hbase

theorem beat_period (m : Machine) (now : Int) : (m.beat now).1.tunerPeriod = m.tunerPeriod := by
  unfold Machine.beat
  split
  · rfl
  · split <;> rfl

theorem beat_running {m : Machine} (h : Shape m.dev.params) (now : Int) : (m.beat now).1.dev.tunerRunning = m.dev.tunerRunning := by
  unfold Machine.beat
  split
  · rfl
  · split
    · obtain ⟨ps, hps⟩ := ui_rest h [] (page := 124) (number := 0) (.num (if m.dev.num (.nrpn [124, 0]) = 0 then 1 else 0)) (by decide) at28
        (.inl ⟨[124, 0], rfl, by decide⟩)
      simp only [hps]
    · rfl

theorem morph_period (m : Machine) : m.morph.1.tunerPeriod = m.tunerPeriod := by
  unfold Machine.morph
  split
  · rfl
  · dsimp only
    split <;> rfl

theorem tune_eq {m : Machine} {t : Tuner} (hr : m.dev.tunerRunning = decide (t.mode = 1)) (hp : m.tunerPeriod = ⟨20, t.last⟩) (now : Int) :
    (m.tune now).1.tunerPeriod = ⟨20, (t.step (.update now)).last⟩ ∧ (m.tune now).1.dev = m.dev ∧
    (m.tune now).2 = if t.sounds now then sendOf m.dev.params (.nrpn [125, 84]) ++ sendOf m.dev.params (.nrpn [124, 15]) else [] := by
  unfold Machine.tune
  by_cases hs : t.sounds now
  · have e : t.step (.update now) = { t with last := now } := if_pos hs
    obtain ⟨h1, h2⟩ := hs
    have hrun : m.dev.tunerRunning = true := by rw [hr]; simpa using h1
    have he : m.tunerPeriod.exceeded now = (true, ⟨20, now⟩) := by
      rw [hp, PeriodCounter.exceeded]
      exact if_pos h2
    have hs : t.sounds now := ⟨h1, h2⟩
    rw [if_pos hrun, e, if_pos hs]
    simp only [he]
    refine ⟨rfl, rfl, ?_⟩
    unfold Device.tuner
    show (if m.dev.tunerRunning = true then _ else _) = _
    rw [if_pos hrun]
  · have e : t.step (.update now) = t := if_neg hs
    rw [e, if_neg hs]
    by_cases h1 : t.mode = 1
    · have hrun : m.dev.tunerRunning = true := by rw [hr]; simpa using h1
      have he : m.tunerPeriod.exceeded now = (false, ⟨20, t.last⟩) := by
        rw [hp, PeriodCounter.exceeded]
        exact if_neg (fun h2 => hs ⟨h1, h2⟩)
      rw [if_pos hrun]
      simp only [he]
      exact ⟨rfl, rfl, rfl⟩
    · have hrun : ¬m.dev.tunerRunning = true := by rw [hr]; simpa using h1
      rw [if_neg hrun]
      exact ⟨hp, rfl, rfl⟩

theorem update_tun {m : Machine} {t : Tuner} (h : Tun m t) (now : Int) : Tun (m.update now).1 (t.step (.update now)) := by
  have u := upd_frame h.view now
  obtain ⟨p, hp⟩ := h.view
  have hmode : (t.step (.update now)).mode = t.mode := by
    simp only [Tuner.step]; split <;> rfl
  refine ⟨⟨p, u.view p hp⟩, ?_, ?_, ?_⟩
  · rw [hmode, u.vals 31 t31 (by decide) at31 (by decide)]; exact h.mode
  · rw [hmode, u.tuner]; exact h.running
  · have e : (m.update now).1 = ((Machine.beat { m with dev := (m.dev.update now).1 } now).1.tune now).1.morph.1 := rfl
    rw [e, morph_period]
    have hr : (Machine.beat { m with dev := (m.dev.update now).1 } now).1.dev.tunerRunning = decide (t.mode = 1) := by
      rw [beat_running (m := { m with dev := (m.dev.update now).1 }) hp.shape now]
      exact h.running
    have hpd : (Machine.beat { m with dev := (m.dev.update now).1 } now).1.tunerPeriod = ⟨20, t.last⟩ := by
      rw [beat_period]; exact h.period
    generalize (Machine.beat { m with dev := (m.dev.update now).1 } now).1 = m1 at hr hpd
    exact (tune_eq hr hpd now).1

theorem step_tun {m : Machine} {t : Tuner} (h : Tun m t) {e : Ev} (he : Complete e) : Tun (m.step e).1 (t.step e) := by
  cases e with
  | receive now date msg => exact message_tun h now date he.1 (fun hs => he.2 (.inl hs))
  | update now => exact update_tun h now
  | use now date u => exact use_tun h now date u

theorem run_tun {m : Machine} {t : Tuner} (h : Tun m t) (es : List Ev) (he : ∀ e ∈ es, Complete e) : Tun (m.run es).1 (es.foldl Tuner.step t) := by
  induction es generalizing m t with
  | nil => exact h
  | cons e es ih => exact ih (step_tun h (he e (by simp))) fun e' h' => he e' (by simp [h'])

theorem initial_tun (bug : Bool) (now : Int) (date : List Nat) : Tun (initial bug now date) { last := now } := by
  have hsh : Shape (table date) := by
    constructor
    · rfl
    · intro i e hi he
      have := (List.getElem?_eq_some_iff.1 he).1
      have hl : (table date).length = 44 := rfl
      rw [hl] at this
      omega
  obtain ⟨hs, -, -, hl⟩ := updateRig_same (d := { proto := Virtual.initial 2 now, params := table date }) hsh date
  refine ⟨⟨_, view_initial now date⟩, hs.vals 31 (by decide) (by decide), ?_, rfl⟩
  have hk : ∀ (d : Device) k w, (d.setKey k w).1.tunerRunning = d.tunerRunning := by
    intro d k w
    unfold Device.setKey
    split
    · rfl
    · split <;> rfl
  show (Setup.initial now date).tunerRunning = _
  simp only [Setup.initial, Device.updateRig, hk]
  rfl

/-! ### The tempo light -/

/-- The device while its tempo is not touched. -/
structure Lit (m : Machine) (b : Nat) (last : Int) (v : Nat) : Prop where
  view : ∃ p, View m.dev p
  pulse : m.pulse = some ⟨30000, b, last⟩
  light : val m.dev.params 28 = some (.num v)

/-- The events which do not concern the tempo. -/
theorem quiet_lit {m : Machine} {b : Nat} {last : Int} {v : Nat} (h : Lit m b last v) {e : Ev} (hp : Proper e) (hn : NoTempo e)
    (hu : ∀ now, e ≠ .update now) : Lit (m.step e).1 b last v := by
  obtain ⟨p, hv⟩ := h.view
  cases e with
  | update now => exact absurd rfl (hu now)
  | receive now date msg =>
    obtain ⟨n1, n2, n3⟩ := hn
    have hd := receive_shape hv now date hp.1
    have h28 := receive_val hv now date hp.1 (i := 28) (by decide) at28
    rw [hit_nrpn (page := 124) (number := 0) rfl rfl, if_neg n3] at h28
    have h28' : val (m.dev.receive now date msg).1.params 28 = some (.num v) := by
      rw [h28, h.light]; split <;> rfl
    simp only [Machine.step, Machine.receive]
    split
    · exact ⟨⟨_, hd⟩, h.pulse, h28'⟩
    · rw [hv.product]
      split
      · exact ⟨⟨_, hd⟩, h.pulse, h28'⟩
      · rename_i q w hf
        obtain ⟨k1, k2⟩ := fired_quiet hv.shape hf n1 n2
        obtain ⟨a1, a2, -, -⟩ := after_same (m := { m with dev := (m.dev.receive now date msg).1 }) (before := m.dev) (now := now) (v := w) k1 k2
        exact ⟨⟨_, by rw [a1]; exact hd⟩, by rw [a2]; exact h.pulse, by rw [a1]; exact h28'⟩
  | use now date u =>
    cases u with
    | tempo b => exact absurd hn id
    | rigButton on => exact ⟨h.view, h.pulse, h.light⟩
    | dev e =>
      cases e with
      | rig n =>
        have r := setRigId_eq hv.shape n date
        exact ⟨⟨_, (setRigId_view hv n date).1⟩, h.pulse, (r.vals 28 (by decide) (by decide) (by decide) (by decide)).trans h.light⟩
      | value page number w =>
        obtain ⟨n1, n2⟩ := hn
        have hview := ui_view hv date page number w
        have h28 : val (m.dev.ui date (.value page number w)).1.params 28 = val m.dev.params 28 := by
          refine ui_other hv.shape _ _ _ _ (by decide) at28 ?_
          intro hx
          simp [t28, skel, nrpn] at hx
          exact n2 (by simp [hx])
        simp only [Machine.step, Machine.use]
        split
        · exact ⟨⟨p, hview⟩, h.pulse, h28.trans h.light⟩
        · rename_i q hf
          obtain ⟨k1, k2, -⟩ := use_param hv.shape hf
          split
          · obtain ⟨a1, a2, -, -⟩ := after_same (m := { m with dev := (m.dev.ui date (.value page number w)).1 }) (before := m.dev) (now := now) (v := w) k1
              (fun hx => absurd hx (k2 n1))
            exact ⟨⟨p, by rw [a1]; exact hview⟩, by rw [a2]; exact h.pulse, by rw [a1]; exact h28.trans h.light⟩
          · exact ⟨⟨p, hview⟩, h.pulse, h28.trans h.light⟩

theorem run_lit {m : Machine} {b : Nat} {last : Int} {v : Nat} (h : Lit m b last v) (es : List Ev) (hp : ∀ e ∈ es, Proper e) (hn : ∀ e ∈ es, NoTempo e) :
    (∃ p, View (m.run es).1.dev p) ∧ val (m.run es).1.dev.params 28 = some (.num (light v (flips b last (updates es)))) := by
  induction es generalizing m last v with
  | nil => exact ⟨h.view, h.light⟩
  | cons e es ih =>
    have hp' := fun e' h' => hp e' (List.mem_cons_of_mem _ h')
    have hn' := fun e' h' => hn e' (List.mem_cons_of_mem _ h')
    by_cases hu : ∃ now, e = .update now
    · obtain ⟨now, rfl⟩ := hu
      have u := upd_frame h.view now
      obtain ⟨p, hv⟩ := h.view
      have hl := u.light v h.light
      have hpu := u.pulse
      rw [h.pulse] at hl hpu
      simp only [Option.any_some, Option.map_some] at hl hpu
      simp only [Machine.run, updates, flips]
      have ho : Pulse.over ⟨30000, b, last⟩ now = decide (30000 < (now - last) * b) := by
        simp only [Pulse.over]
        have : (now - last) * (b : Int) = now * b - last * b := Int.sub_mul _ _ _
        rw [this]
        generalize now * (b : Int) = x
        generalize last * (b : Int) = y
        simp only [decide_eq_decide]
        omega
      simp only [ho] at hl hpu
      by_cases hc : 30000 < (now - last) * b
      · rw [if_pos hc, Nat.add_comm]
        simp only [hc, decide_true, if_true] at hl hpu
        exact ih (m := (m.update now).1) ⟨⟨p, u.view p hv⟩, hpu, hl⟩ hp' hn'
      · rw [if_neg hc]
        simp only [hc, decide_false] at hl hpu
        exact ih (m := (m.update now).1) ⟨⟨p, u.view p hv⟩, hpu, hl⟩ hp' hn'
    · have q := quiet_lit h (hp e (by simp)) (hn e (by simp)) (fun now hx => hu ⟨now, hx⟩)
      have hup : updates (e :: es) = updates es := by
        cases e with
        | update now => exact absurd ⟨now, rfl⟩ hu
        | receive => rfl
        | use => rfl
      rw [hup]
      exact ih q hp' hn'

theorem tempo_lit {m : Machine} (h : ∃ p, View m.dev p) (now : Int) {b : Nat} (hb : 1 ≤ b) (hb' : b ≤ 256) :
    ∃ v, val m.dev.params 28 = some (.num v) ∧ Lit (m.setTempo now b).1 b now v := by
  obtain ⟨p, hv⟩ := h
  obtain ⟨v, hl⟩ := val_num (d := m.dev) hv.shape (i := 28) (by decide) at28 rfl
  have hbpm := setTempo_bpm (m := m) hv.shape now b
  have hpu := (setBpm_bpm (m := m) hv.shape now (pulseOf b now)).2
  refine ⟨v, hl, ⟨p, hbpm.view p hv⟩, ?_, (hbpm.vals 28 t28 (by decide) at28 (by decide)).trans hl⟩
  have e : (m.setTempo now b).1 = (Machine.setBpm 2 { m with pulse := pulseOf b now } now (bpmValue (pulseOf b now))).1 := rfl
  have e1 : pulseOf b now = some ⟨30000, b, now⟩ := if_neg (by omega)
  rw [e]
  rcases hpu with hpu | hpu
  · rw [hpu, e1]
  · rw [hpu, bpmValue_pulseOf, bpmOf_shown, Nat.min_eq_right hb', e1]

end PySwitch.Kemper.Machine
