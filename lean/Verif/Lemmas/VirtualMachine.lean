import Verif.Spec.VirtualMachine
import Verif.Lemmas.VirtualTouch

namespace PySwitch.Kemper.Machine
open PySwitch.Wire PySwitch.Kemper.Virtual PySwitch.Kemper.Setup PySwitch.Kemper.Synced
open PySwitch.Kemper.Machine.Spec

/-! ### Parameters used here -/

def t28 : Param := skel (nrpn 124 0 (.num 0) [] allSets)
def t29 : Param := skel (control 30)
def t30 : Param := skel (nrpn 4 0 (.num 7680))
def t31 : Param := skel (nrpn 127 126 (.num 0) [.cc 31 none] allSets)

theorem at28 : T[28]? = some t28 := rfl
theorem at29 : T[29]? = some t29 := rfl
theorem at30 : T[30]? = some t30 := rfl
theorem at31 : T[31]? = some t31 := rfl

theorem findSome_one {α β : Type} (f : α → Option β) (a : α) : [a].findSome? f = f a := by
  cases h : f a <;> simp [h]

/-- A parameter with NRPN key only. -/
theorem hit_nrpn {t : Param} {page number : Nat} (hr : t.receive = [.nrpn [page, number]]) (hv : t.value = .num 0) (m : List Nat) :
    t.hit 2 m = if m.take 10 = [240, 0, 32, 51, 2, 127, 65, 0, page, number] then some .request
      else if Sets page number m then some (.set (evaluate (.num 0) (slice m 10 (m.length - 1)))) else none := by
  rw [Param.hit, hr, hv, findSome_one]
  rfl

theorem hit_29 (m : List Nat) : t29.hit 2 m = if m.take 2 = [176, 30] then some (.set (.num (m.getD 2 0))) else none := by
  have : t29.hit 2 m = hitKey 2 (.num 0) m (.cc 30 none) := by
    rw [Param.hit, show t29.receive = [.cc 30 none] from rfl, findSome_one]
    rfl
  rw [this]
  simp only [hitKey, Option.getD_none, Nat.mul_one]

/-- The value in a complete message. -/
theorem set_value {page number : Nat} {m : List Nat} (h : Sets page number m) (hl : m.length = 13) :
    evaluate (.num 0) (slice m 10 (m.length - 1)) = .num (m.getD 10 0 * 128 + m.getD 11 0) := by
  match m, hl with
  | [a0, a1, a2, a3, a4, a5, a6, a7, a8, a9, a10, a11, a12], _ => rfl

/-! ### Tempo -/

theorem bpmValue_reset (p : Pulse) (now : Int) : bpmValue (some { p with lastReset := now }) = bpmValue (some p) := rfl

theorem bpmValue_pulseOf (b : Nat) (now : Int) : bpmValue (pulseOf b now) = shown b := by
  unfold pulseOf
  split
  · rename_i h; subst h; rfl
  · simp only [bpmValue, shown]
    rw [if_neg (by decide)]
    have : (60000 * b + 30000) / (2 * 30000) = b := by omega
    rw [this]
    split <;> omega

theorem bpmOf_shown (b : Nat) : bpmOf (shown b) = min 256 b := by
  simp only [bpmOf, shown]
  split
  · rw [if_pos rfl]; omega
  · rw [if_neg (by omega)]; omega

theorem shown_min (b : Nat) : shown (min 256 b) = shown b := by
  simp only [shown]; split <;> split <;> omega

theorem bpmValue_shown (p : Option Pulse) : ∃ b, bpmValue p = shown b := by
  cases p with
  | none => exact ⟨0, rfl⟩
  | some p =>
    simp only [bpmValue]
    split
    · exact ⟨256, rfl⟩
    · refine ⟨(60000 * p.den + p.num) / (2 * p.num), ?_⟩
      simp only [shown]
      split
      · rfl
      · exact Nat.mul_comm _ _

theorem bpmOf_eq (v : Nat) : min 256 (bpmOf v) = ofValue v := by
  simp only [bpmOf, ofValue, nearest]
  split <;> omega

theorem ofValue_shown {b : Nat} (h : b ≤ 256) : ofValue (shown b) = b := by
  simp only [ofValue, shown, nearest]
  split <;> split <;> omega

/-- The calls among the tempo and its parameter end. -/
theorem settled (p : Option Pulse) (now : Int) : bpmValue (pulseOf (bpmOf (bpmValue p)) now) = bpmValue p := by
  obtain ⟨b, hb⟩ := bpmValue_shown p
  rw [hb, bpmOf_shown, bpmValue_pulseOf, shown_min]

theorem num_30 {d : Device} (h : Shape d.params) {w : Nat} (hw : val d.params 30 = some (.num w)) : d.num (.nrpn [4, 0]) = w :=
  num_eq h (i := 30) (by decide) hw

theorem num_28 {d : Device} (h : Shape d.params) {w : Nat} (hw : val d.params 28 = some (.num w)) : d.num (.nrpn [124, 0]) = w :=
  num_eq h (i := 28) (by decide) hw

theorem num_34 {d : Device} (h : Shape d.params) {w : Nat} (hw : val d.params 34 = some (.num w)) : d.num (.nrpn [0, 11]) = w :=
  num_eq h (i := 34) (by decide) hw

/-- A numeric parameter has a number. -/
theorem val_num {d : Device} (h : Shape d.params) {i : Nat} (hi : i < 44) {t : Param} (ht : T[i]? = some t) (hv : t.value = .num 0) :
    ∃ n, val d.params i = some (.num n) := by
  obtain ⟨q, hq, hs⟩ := h.at hi
  rw [ht] at hs
  simp only [Option.some.injEq] at hs
  rw [← hs] at hv
  simp only [skel] at hv
  cases hqv : q.value with
  | num n => exact ⟨n, by simp [val, hq, hqv]⟩
  | str s => rw [hqv] at hv; simp [zero] at hv

theorem ui_30 {d : Device} (h : Shape d.params) (v : Nat) : val (d.ui [] (.value 4 0 (.num v))).1.params 30 = some (.num v) := by
  rw [ui_val h [] 4 0 (.num v) (i := 30) (by decide) at30, if_pos ⟨rfl, rfl⟩]

theorem ui_other {d : Device} (h : Shape d.params) (date : List Nat) (page number : Nat) (v : PVal) {i : Nat} (hi : Own i)
    {t : Param} (ht : T[i]? = some t) (hn : t.send ≠ some (.nrpn [page, number])) :
    val (d.ui date (.value page number v)).1.params i = val d.params i := by
  rw [ui_val h date page number v hi ht, if_neg (fun hx => hn hx.1)]

/-- Callbacks which do nothing to the parameters. -/
theorem callback_none {d : Device} {q : Param} {v : PVal} {date : List Nat}
    (h : (∃ data, q.receive.head? = some (.nrpn data) ∧ data ≠ [0, 16]) ∨ ∃ s, q.receive.head? = some (.cc 11 s)) : d.callback q v date = (d, []) := by
  rcases h with ⟨data, h, hd⟩ | ⟨s, h⟩
  · simp only [Device.callback, h, if_neg hd]
  · simp [Device.callback, h]

theorem ui_rest {d : Device} (h : Shape d.params) (date : List Nat) {page number i : Nat} (v : PVal)
    (hi : T.findIdx? (fun p => p.send == some (.nrpn [page, number])) = some i) {t : Param} (ht : T[i]? = some t)
    (hr : (∃ data, t.receive.head? = some (.nrpn data) ∧ data ≠ [0, 16]) ∨ ∃ s, t.receive.head? = some (.cc 11 s)) :
    ∃ ps, d.ui date (.value page number v) = ({ d with params := ps }, (d.setKey (.nrpn [page, number]) v).2) := by
  obtain ⟨-, hidx, q, hq, -, hs, hf⟩ := h.sent hi
  rw [ht] at hs
  simp only [Option.some.injEq] at hs
  have hr' : (∃ data, q.receive.head? = some (.nrpn data) ∧ data ≠ [0, 16]) ∨ ∃ s, q.receive.head? = some (.cc 11 s) := by
    rw [← hs] at hr; exact hr
  have hk : ∃ ps, (d.setKey (.nrpn [page, number]) v).1 = { d with params := ps } := by
    unfold Device.setKey
    split
    · exact ⟨d.params, rfl⟩
    · split
      · exact ⟨d.params, rfl⟩
      · exact ⟨_, rfl⟩
  obtain ⟨ps, hps⟩ := hk
  refine ⟨ps, ?_⟩
  simp only [Device.ui, hf]
  split
  · rw [callback_none hr', List.nil_append, hps]
  · rw [← hps]

/-- Parameters which are sent by NRPN have no callback for buttons. -/
theorem nrpn_heads : ∀ j : Fin 44, ∀ t ∈ T[j.val]?, (match t.send, t.receive.head? with
    | some (.nrpn _), some (.cc c _) => decide (c < 48)
    | _, _ => true) = true := by decide +kernel

theorem ui_head {d : Device} (h : Shape d.params) {page number : Nat} {q : Param}
    (hf : d.params.find? (fun p => p.send == some (.nrpn [page, number])) = some q) : ∀ c s, q.receive.head? = some (.cc c s) → c < 48 := by
  intro c s hc
  obtain ⟨g1, j, hj, hjq, -⟩ := List.find?_eq_some_iff_getElem.1 hf
  have hq : d.params[j]? = some q := by rw [List.getElem?_eq_getElem hj, hjq]
  have g1 : q.send = some (.nrpn [page, number]) := by simpa using g1
  by_cases h44 : j < 44
  · obtain ⟨q', hq', hs⟩ := h.at h44
    rw [hq] at hq'
    simp only [Option.some.injEq] at hq'
    subst hq'
    have ht := nrpn_heads ⟨j, h44⟩ (skel q) hs.symm
    simpa only [skel, g1, hc, decide_eq_true_eq] using ht
  · obtain ⟨k, e1, e2, -⟩ := h.extra j q (by omega) hq
    rw [e1] at hc
    simp only [List.head?_cons, Option.some.injEq] at hc
    rw [e2, hc] at g1
    simp at g1

def t34 : Param := skel (nrpn 0 11 (.num 0) [.cc 11 (some 128)])
theorem at34 : T[34]? = some t34 := rfl

theorem ui_34 {d : Device} (h : Shape d.params) (date : List Nat) (page number : Nat) (v : PVal) :
    val (d.ui date (.value page number v)).1.params 34 =
      if (page, number) = (0, 11) ∧ kind v = kind t34.value then some v else val d.params 34 := by
  rw [ui_val' h date page number v (i := 34) (by decide) at34 fun d' q hs hf => callback_34 hs (fun c s hc => by
    have := ui_head h hf c s hc; omega) v date]
  have : (t34.send = some (.nrpn [page, number])) ↔ ((page, number) = (0, 11)) := by
    simp [t34, skel, nrpn, eq_comm]
  simp only [this]

/-- What setting the parameter for the tempo does. -/
structure Bpm (m r : Machine) (v : Nat) : Prop where
  shape : Shape r.dev.params
  bpm : val r.dev.params 30 = some (.num v)
  pulse : bpmValue r.pulse = v
  vals : ∀ i t, Own i → T[i]? = some t → i ≠ 30 → val r.dev.params i = val m.dev.params i
  v34 : val r.dev.params 34 = val m.dev.params 34
  view : ∀ p, View m.dev p → View r.dev p
  dev : ∃ ps, r.dev = { m.dev with params := ps }
  rest : r = { m with dev := r.dev, pulse := r.pulse }

theorem setBpm_pos {m : Machine} {k : Nat} {now : Int} {v : Nat} (h : m.dev.num (.nrpn [4, 0]) = v) : Machine.setBpm (k + 1) m now v = (m, []) := by
  simp only [Machine.setBpm, if_pos h]

theorem setBpm_neg {m : Machine} {k : Nat} {now : Int} {v : Nat} (h : m.dev.num (.nrpn [4, 0]) ≠ v) : Machine.setBpm (k + 1) m now v =
    ((Machine.setBpm k { m with dev := (m.dev.ui [] (.value 4 0 (.num v))).1, pulse := pulseOf (bpmOf v) now } now (bpmValue (pulseOf (bpmOf v) now))).1,
     (Machine.setBpm k { m with dev := (m.dev.ui [] (.value 4 0 (.num v))).1, pulse := pulseOf (bpmOf v) now } now (bpmValue (pulseOf (bpmOf v) now))).2 ++
       (m.dev.ui [] (.value 4 0 (.num v))).2) := by
  simp only [Machine.setBpm, if_neg h]

theorem setBpm_eq {m : Machine} (h : Shape m.dev.params) (k : Nat) (now : Int) (pulse : Option Pulse) :
    Machine.setBpm (k + 2) { m with pulse } now (bpmValue pulse) =
      if m.dev.num (.nrpn [4, 0]) = bpmValue pulse then ({ m with pulse }, [])
      else ({ m with dev := (m.dev.ui [] (.value 4 0 (.num (bpmValue pulse)))).1, pulse := pulseOf (bpmOf (bpmValue pulse)) now },
        (m.dev.ui [] (.value 4 0 (.num (bpmValue pulse)))).2) := by
  by_cases hc : m.dev.num (.nrpn [4, 0]) = bpmValue pulse
  · rw [if_pos hc]
    exact setBpm_pos hc
  · rw [if_neg hc, setBpm_neg (m := { m with pulse }) hc, settled]
    have hs : Shape (m.dev.ui [] (.value 4 0 (.num (bpmValue pulse)))).1.params := by
      obtain ⟨a1, -, -, a4⟩ := Shape.setKey (d := m.dev) h (key := .nrpn [4, 0]) (v := .num (bpmValue pulse)) (i := 30) (by decide) at30 rfl
      simp only [Device.ui]
      split
      · exact h
      · split
        · exact (callback_keep a1 _ _ _).shape
        · exact a1
    have : (m.dev.ui [] (.value 4 0 (.num (bpmValue pulse)))).1.num (.nrpn [4, 0]) = bpmValue pulse := num_30 hs (ui_30 h _)
    rw [setBpm_pos (m := { m with dev := (m.dev.ui [] (.value 4 0 (.num (bpmValue pulse)))).1, pulse := pulseOf (bpmOf (bpmValue pulse)) now }) this]
    rfl

/-- The depth of the calls is at most two. -/
theorem setBpm_fuel {m : Machine} (h : Shape m.dev.params) (k : Nat) (now : Int) (pulse : Option Pulse) :
    Machine.setBpm (k + 2) { m with pulse } now (bpmValue pulse) = Machine.setBpm 2 { m with pulse } now (bpmValue pulse) := by
  rw [setBpm_eq h, setBpm_eq (k := 0) h]

theorem setBpm_bpm {m : Machine} (h : Shape m.dev.params) (now : Int) (pulse : Option Pulse) :
    Bpm m (Machine.setBpm 2 { m with pulse } now (bpmValue pulse)).1 (bpmValue pulse) ∧
    ((Machine.setBpm 2 { m with pulse } now (bpmValue pulse)).1.pulse = pulse ∨
      (Machine.setBpm 2 { m with pulse } now (bpmValue pulse)).1.pulse = pulseOf (bpmOf (bpmValue pulse)) now) := by
  rw [setBpm_eq (k := 0) h]
  obtain ⟨w, hw⟩ := val_num (d := m.dev) h (i := 30) (by decide) at30 rfl
  split
  · rename_i hc
    rw [num_30 h hw] at hc
    exact ⟨⟨h, by rw [hw, hc], rfl, fun _ _ _ _ _ => rfl, rfl, fun _ hp => hp, ⟨_, rfl⟩, rfl⟩, .inl rfl⟩
  · obtain ⟨ps, hps⟩ := ui_rest h [] (page := 4) (number := 0) (.num (bpmValue pulse)) (by decide) at30 (.inl ⟨[4, 0], rfl, by decide⟩)
    have hs : Shape (m.dev.ui [] (.value 4 0 (.num (bpmValue pulse)))).1.params := by
      obtain ⟨a1, -, -, a4⟩ := Shape.setKey (d := m.dev) h (key := .nrpn [4, 0]) (v := .num (bpmValue pulse)) (i := 30) (by decide) at30 rfl
      simp only [Device.ui]
      split
      · exact h
      · split
        · exact (callback_keep a1 _ _ _).shape
        · exact a1
    refine ⟨⟨hs, ui_30 h _, settled _ _, ?_, by rw [ui_34 h, if_neg (by simp)], fun p hp => ui_view hp _ _ _ _, ⟨ps, by rw [hps]⟩, rfl⟩, .inr rfl⟩
    intro i t hi ht h30
    refine ui_other h _ _ _ _ hi ht ?_
    intro hsend
    have := sends_apart ⟨i, hi.1⟩ ⟨30, by decide⟩ (fun hx => h30 (congrArg Fin.val hx)) t ht t30 at30 hsend
    rw [hsend] at this
    simp at this

theorem setTempo_bpm {m : Machine} (h : Shape m.dev.params) (now : Int) (b : Nat) : Bpm m (m.setTempo now b).1 (shown b) := by
  have := (setBpm_bpm h now (pulseOf b now)).1
  simp only [bpmValue_pulseOf] at this
  unfold Machine.setTempo
  rw [bpmValue_pulseOf]
  exact this

/-! ### The tempo and the messages -/

/-- The device and the tempo. -/
structure Inv (m : Machine) (c : Metronome) : Prop where
  view : ∃ p, View m.dev p
  bpm : val m.dev.params 30 = some (.num (shown c.bpm))
  pulse : bpmValue m.pulse = shown c.bpm
  small : c.bpm ≤ 256
  button : val m.dev.params 29 = some (.num c.button)
  tap : m.lastTap = c.lastTap

theorem Inv.shape {m : Machine} {c : Metronome} (h : Inv m c) : Shape m.dev.params := by
  obtain ⟨p, hp⟩ := h.view
  exact hp.shape

/-- What does not change the tempo. -/
theorem Inv.of {m r : Machine} {c : Metronome} (h : Inv m c) (hv : ∃ p, View r.dev p) (h29 : val r.dev.params 29 = val m.dev.params 29)
    (h30 : val r.dev.params 30 = val m.dev.params 30) (hp : bpmValue r.pulse = bpmValue m.pulse) (ht : r.lastTap = m.lastTap) : Inv r c :=
  ⟨hv, h30.trans h.bpm, hp.trans h.pulse, h.small, h29.trans h.button, ht.trans h.tap⟩

theorem Bpm.inv {m r : Machine} {c : Metronome} {b : Nat} (hr : Bpm m r (shown b)) (hv : ∃ p, View m.dev p)
    (h29 : val m.dev.params 29 = some (.num c.button)) (ht : m.lastTap = c.lastTap) : Inv r { c with bpm := min 256 b } := by
  obtain ⟨p, hp⟩ := hv
  refine ⟨⟨p, hr.view p hp⟩, ?_, ?_, Nat.min_le_left _ _, ?_, ?_⟩
  · rw [hr.bpm, shown_min]
  · rw [hr.pulse, shown_min]
  · rw [hr.vals 29 t29 (by decide) at29 (by decide)]; exact h29
  · rw [hr.rest]; exact ht

theorem trigger_same (m : Machine) : m.trigger.dev = m.dev ∧ m.trigger.pulse = m.pulse ∧ m.trigger.lastTap = m.lastTap := by
  unfold Machine.trigger
  split <;> exact ⟨rfl, rfl, rfl⟩

/-- Callbacks which have nothing to do with the tempo. -/
theorem after_same {m : Machine} {before : Device} {now : Int} {p : Param} {v : PVal} (h1 : ∀ s, p.receive.head? ≠ some (.cc 30 s))
    (h2 : p.receive.head? = some (.nrpn [4, 0]) → ∀ n, v ≠ .num n) :
    (m.after before now p v).1.dev = m.dev ∧ (m.after before now p v).1.pulse = m.pulse ∧ (m.after before now p v).1.lastTap = m.lastTap ∧
    (m.after before now p v).2 = [] := by
  unfold Machine.after
  split
  · rename_i c s hc
    rw [if_neg (by rintro rfl; exact h1 _ hc)]
    split
    · split
      · exact ⟨(trigger_same m).1, (trigger_same m).2.1, (trigger_same m).2.2, rfl⟩
      · exact ⟨rfl, rfl, rfl, rfl⟩
    · split
      · exact ⟨(trigger_same m).1, (trigger_same m).2.1, (trigger_same m).2.2, rfl⟩
      · exact ⟨rfl, rfl, rfl, rfl⟩
  · rename_i data n hd
    rw [if_neg (by rintro rfl; exact h2 hd n rfl)]
    exact ⟨rfl, rfl, rfl, rfl⟩
  · exact ⟨rfl, rfl, rfl, rfl⟩

theorem tap_inv {m : Machine} {c : Metronome} (h : Inv m c) (now : Int) : Inv (m.tap now (.num 1)).1 (c.tap now) := by
  unfold Machine.tap Metronome.tap
  rw [if_neg (by simp), h.tap]
  cases hl : c.lastTap with
  | none => exact ⟨h.view, h.bpm, h.pulse, h.small, h.button, rfl⟩
  | some t =>
    dsimp only
    by_cases hd : now - t > 3000
    · rw [if_pos (by omega), if_pos hd]
      exact ⟨h.view, h.bpm, h.pulse, h.small, h.button, rfl⟩
    · rw [if_neg (by omega), if_neg hd]
      have hb := (setBpm_bpm (m := { m with lastTap := some now }) h.shape now (some ⟨(now - t).toNat, 2, now⟩)).1
      have hv : bpmValue (some ⟨(now - t).toNat, 2, now⟩) = shown (if now ≤ t then 256 else nearest 60000 (now - t).toNat) := by
        simp only [bpmValue, nearest]
        by_cases hle : now ≤ t
        · rw [if_pos (by omega), if_pos hle]; rfl
        · rw [if_neg (by omega), if_neg hle]
          simp only [shown]
          split
          · rfl
          · exact Nat.mul_comm _ _
      rw [hv] at hb ⊢
      have := Bpm.inv (c := { c with lastTap := some now }) hb h.view h.button rfl
      have e : (if now ≤ t then 256 else min 256 (nearest 60000 (now - t).toNat)) = min 256 (if now ≤ t then 256 else nearest 60000 (now - t).toNat) := by
        split <;> omega
      rw [e]
      exact this

theorem fires_num {q : Param} {n v : Nat} (hq : q.value = .num n) (hb : q.noBuffer = false) : fires q (.num v) = decide (v ≠ n) := by
  simp only [fires, hq, hb, Bool.false_or, Bool.and_true]
  by_cases h : v = n
  · subst h; simp
  · simp [h, Ne.symm h]

theorem head_table : ∀ j : Fin 44, ∀ t ∈ T[j.val]?, (match t.receive.head? with
    | some (.cc c _) => decide (c = 30 → j.val = 29)
    | some (.nrpn d) => decide (d = [4, 0] → j.val = 30)
    | _ => true) = true := by decide +kernel

/-- The parameter at a place. -/
theorem place_param {d : Device} (h : Shape d.params) {i : Nat} (hi : i < 44) {t : Param} (ht : T[i]? = some t) {n : Nat} (hv : val d.params i = some (.num n)) :
    ∃ q, d.params[i]? = some q ∧ skel q = t ∧ q.value = .num n := by
  obtain ⟨q, hq, hs⟩ := h.at hi
  rw [ht] at hs
  simp only [Option.some.injEq] at hs
  refine ⟨q, hq, hs, ?_⟩
  simpa [val, hq] using hv

theorem view_receive {m : Machine} {c : Metronome} (h : Inv m c) (now : Int) (date : List Nat) {msg : List Nat} (hm : Setup.Spec.Midi msg) :
    ∃ p, View (m.dev.receive now date msg).1 p := by
  obtain ⟨p, hp⟩ := h.view
  exact ⟨_, (receive_step hp now date hm).1⟩

/-- Messages which have nothing to do with the tempo. -/
theorem fired_quiet {d : Device} (h : Shape d.params) {msg : List Nat} {q : Param} {v : PVal} (hf : fired 2 d.params msg = some (q, v))
    (hx30 : msg.take 2 ≠ [176, 30]) (hs : ¬Sets 4 0 msg) :
    (∀ s, q.receive.head? ≠ some (.cc 30 s)) ∧ (q.receive.head? = some (.nrpn [4, 0]) → ∀ n, v ≠ .num n) := by
  rcases fired_cases h hf with ⟨j, hj, hq, hhit, -⟩ | ⟨⟨k, e1, -, -⟩, hhit, -⟩
  · obtain ⟨q', hq', hsk⟩ := h.at hj
    rw [hq] at hq'
    simp only [Option.some.injEq] at hq'
    subst hq'
    have ht := head_table ⟨j, hj⟩ (skel q) hsk.symm
    simp only [skel] at ht
    constructor
    · intro s hc
      rw [hc] at ht
      simp only [decide_eq_true_eq] at ht
      have := ht trivial
      subst this
      rw [at29] at hsk
      simp only [Option.some.injEq] at hsk
      rw [← hit_skel, hsk, hit_29, if_neg hx30] at hhit
      simp at hhit
    · intro hc
      rw [hc] at ht
      simp only [decide_eq_true_eq] at ht
      have := ht trivial
      subst this
      rw [at30] at hsk
      simp only [Option.some.injEq] at hsk
      rw [← hit_skel, hsk, hit_nrpn (page := 4) (number := 0) rfl rfl, if_neg hs] at hhit
      split at hhit <;> simp at hhit
  · rw [Param.hit, e1, findSome_one] at hhit
    rw [e1]
    constructor
    · intro s hc
      simp only [List.head?_cons, Option.some.injEq] at hc
      rw [hc] at hhit
      simp only [hitKey, if_neg hx30] at hhit
      simp at hhit
    · intro hc n hv
      simp only [List.head?_cons, Option.some.injEq] at hc
      have hfd : q.hit 2 msg = some (.set v) := by
        simp only [fired] at hf
        split at hf
        · simp at hf
        · split at hf
          · rename_i hh
            split at hf
            · simp only [Option.some.injEq, Prod.mk.injEq] at hf
              rw [← hf.1, ← hf.2]; exact hh
            · simp at hf
          · simp at hf
      rw [Param.hit, e1, findSome_one, hc] at hfd
      cases hqv : q.value with
      | num w =>
        simp only [hitKey, hqv, requestCode, setCode] at hfd
        split at hfd
        · simp at hfd
        · rw [if_neg] at hfd
          · simp at hfd
          · exact hs
      | str w =>
        simp only [hitKey, hqv, requestCode, setCode] at hfd
        split at hfd
        · simp at hfd
        · split at hfd
          · simp only [Option.some.injEq, Hit.set.injEq, evaluate] at hfd
            rw [hv] at hfd
            simp at hfd
          · simp at hfd

theorem receive_inv {m : Machine} {c : Metronome} (h : Inv m c) (now : Int) (date : List Nat) {msg : List Nat} (hm : Setup.Spec.Midi msg)
    (hl : Sets 4 0 msg → msg.length = 13) : Inv (m.receive now date msg).1 (c.message now msg) := by
  have hview := view_receive h now date hm
  obtain ⟨p, hp⟩ := h.view
  have h29 := receive_val hp now date hm (i := 29) (by decide) at29
  have h30 := receive_val hp now date hm (i := 30) (by decide) at30
  rw [hit_29] at h29
  rw [hit_nrpn (page := 4) (number := 0) rfl rfl] at h30
  have hset176 : ∀ {x : Nat}, msg.take 2 = [176, x] → ¬Sets 4 0 msg ∧ msg.take 10 ≠ [240, 0, 32, 51, 2, 127, 65, 0, 4, 0] := by
    intro x hx
    cases msg with
    | nil => simp at hx
    | cons a msg => simp at hx; simp [Sets, hx.1]
  unfold Machine.receive Metronome.message
  dsimp only
  by_cases hx30 : msg.take 2 = [176, 30]
  · -- the tap button
    obtain ⟨s1, s2⟩ := hset176 hx30
    rw [if_pos hx30, if_neg (by rw [hx30]; simp), hp.product]
    rw [if_pos hx30] at h29
    rw [if_neg s2, if_neg s1] at h30
    obtain ⟨q, hq, hsk, hqv⟩ := place_param hp.shape (i := 29) (by decide) at29 h.button
    have hhit : q.hit 2 msg = some (.set (.num (msg.getD 2 0))) := by rw [← hit_skel, hsk, hit_29, if_pos hx30]
    have hnb : q.noBuffer = false := congrArg Param.noBuffer hsk
    have hrec : q.receive.head? = some (.cc 30 none) := by
      have := congrArg Param.receive hsk
      rw [show q.receive = t29.receive from this]; rfl
    rw [fired_own hp.shape (by decide) hq hhit, fires_num hqv hnb]
    by_cases hv : msg.getD 2 0 = c.button
    · rw [if_neg (by simpa using hv), if_pos hv]
      refine h.of hview ?_ ?_ rfl rfl
      · show val (m.dev.receive now date msg).1.params 29 = _
        rw [h29, h.button, ← hv]; rfl
      · exact h30
    · rw [if_pos (by simpa using hv), if_neg hv]
      have hbase : Inv { m with dev := (m.dev.receive now date msg).1 } { c with button := msg.getD 2 0 } :=
        ⟨hview, h30.trans h.bpm, h.pulse, h.small, h29, h.tap⟩
      have haf : ∀ (m' : Machine) (b : Device), m'.after b now q (.num (msg.getD 2 0)) = m'.tap now (.num (msg.getD 2 0)) := by
        intro m' b
        simp only [Machine.after, hrec, if_true]
      simp only [haf]
      by_cases h1 : msg.getD 2 0 = 1
      · rw [if_pos h1]
        have := tap_inv hbase now
        rw [h1] at this ⊢
        exact this
      · rw [if_neg h1]
        simp only [Machine.tap]
        rw [if_pos (by simpa using h1)]
        exact hbase
  · rw [if_neg hx30]
    rw [if_neg hx30] at h29
    by_cases hs : Sets 4 0 msg
    · -- the parameter for the tempo
      have hne : msg.take 10 ≠ [240, 0, 32, 51, 2, 127, 65, 0, 4, 0] := by
        intro hx; simp only [Sets] at hs; rw [hs] at hx; simp at hx
      have h240 : msg.take 2 ≠ [176, 47] := by
        intro hx; exact (hset176 hx).1 hs
      have hval := set_value hs (hl hs)
      rw [if_pos hs, if_neg h240, hp.product]
      rw [if_neg hne, if_pos hs, hval] at h30
      obtain ⟨q, hq, hsk, hqv⟩ := place_param hp.shape (i := 30) (by decide) at30 h.bpm
      have hhit : q.hit 2 msg = some (.set (.num (msg.getD 10 0 * 128 + msg.getD 11 0))) := by
        rw [← hit_skel, hsk, hit_nrpn (page := 4) (number := 0) rfl rfl, if_neg hne, if_pos hs, hval]
      have hnb : q.noBuffer = false := congrArg Param.noBuffer hsk
      have hrec : q.receive.head? = some (.nrpn [4, 0]) := by
        have := congrArg Param.receive hsk
        rw [show q.receive = t30.receive from this]; rfl
      generalize msg.getD 10 0 * 128 + msg.getD 11 0 = v at h30 hhit ⊢
      rw [fired_own hp.shape (by decide) hq hhit, fires_num hqv hnb]
      by_cases hv : v = shown c.bpm
      · rw [if_neg (by simpa using hv)]
        have e : ofValue v = c.bpm := by rw [hv, ofValue_shown h.small]
        rw [e]
        exact h.of hview h29 (by show val (m.dev.receive now date msg).1.params 30 = _; rw [h30, h.bpm, hv]; rfl) rfl rfl
      · rw [if_pos (by simpa using hv)]
        have haf : ∀ (m' : Machine) (b : Device), m'.after b now q (.num v) = m'.setTempo now (bpmOf v) := by
          intro m' b
          simp only [Machine.after, hrec, if_true]
        simp only [haf]
        obtain ⟨p', hp'⟩ := hview
        have hb := setTempo_bpm (m := { m with dev := (m.dev.receive now date msg).1 }) hp'.shape now (bpmOf v)
        rw [← bpmOf_eq]
        exact hb.inv ⟨p', hp'⟩ (h29.trans h.button) h.tap
    · -- anything else
      rw [if_neg hs]
      have h30' : val (m.dev.receive now date msg).1.params 30 = val m.dev.params 30 := by
        rw [h30, if_neg hs]
        split <;> rfl
      have hbase : Inv { m with dev := (m.dev.receive now date msg).1 } c := h.of hview h29 h30' rfl rfl
      split
      · exact hbase
      · rw [hp.product]
        cases hf : fired 2 m.dev.params msg with
        | none => exact hbase
        | some x =>
          obtain ⟨q, v⟩ := x
          dsimp only
          have key := fired_quiet hp.shape hf hx30 hs
          obtain ⟨a1, a2, a3, -⟩ := after_same (m := { m with dev := (m.dev.receive now date msg).1 }) (before := m.dev) (now := now) key.1 key.2
          exact hbase.of (by rw [a1]; exact hview) (by rw [a1]) (by rw [a1]) (by rw [a2]) a3

/-- The parameter which is changed with the user interface. -/
theorem use_param {d : Device} (h : Shape d.params) {page number : Nat} {q : Param}
    (hf : d.params.find? (fun p => p.send == some (.nrpn [page, number])) = some q) :
    (∀ s, q.receive.head? ≠ some (.cc 30 s)) ∧ ((page, number) ≠ (4, 0) → q.receive.head? ≠ some (.nrpn [4, 0])) ∧
    ((page, number) = (4, 0) → d.params[30]? = some q) := by
  by_cases h40 : (page, number) = (4, 0)
  · simp only [Prod.mk.injEq] at h40
    obtain ⟨rfl, rfl⟩ := h40
    obtain ⟨-, -, q', hq', -, hs, hf'⟩ := h.sent (key := .nrpn [4, 0]) (i := 30) (by decide)
    rw [hf] at hf'
    simp only [Option.some.injEq] at hf'
    subst hf'
    rw [at30] at hs
    simp only [Option.some.injEq] at hs
    have hrec := congrArg Param.receive hs
    have hrec : q.receive = t30.receive := hrec
    refine ⟨?_, fun hx => absurd rfl hx, fun _ => hq'⟩
    intro s
    rw [hrec]
    simp [t30, skel, nrpn, keys]
  · refine ⟨?_, fun _ => ?_, fun hx => absurd hx h40⟩
    · intro s hc
      obtain ⟨g1, j, hj, hjq, -⟩ := List.find?_eq_some_iff_getElem.1 hf
      have hq : d.params[j]? = some q := by rw [List.getElem?_eq_getElem hj, hjq]
      by_cases h44 : j < 44
      · obtain ⟨q', hq', hs⟩ := h.at h44
        rw [hq] at hq'
        simp only [Option.some.injEq] at hq'
        subst hq'
        have ht := head_table ⟨j, h44⟩ (skel q) hs.symm
        simp only [skel, hc, decide_eq_true_eq] at ht
        have := ht trivial
        subst this
        rw [at29] at hs
        simp only [Option.some.injEq] at hs
        have := congrArg Param.send hs
        have : q.send = t29.send := this
        rw [this] at g1
        simp [t29, skel, Setup.control] at g1
      · obtain ⟨k, e1, e2, -⟩ := h.extra j q (by omega) hq
        rw [e1] at hc
        simp only [List.head?_cons, Option.some.injEq] at hc
        rw [e2, hc] at g1
        simp at g1
    · intro hc
      obtain ⟨g1, j, hj, hjq, -⟩ := List.find?_eq_some_iff_getElem.1 hf
      have hq : d.params[j]? = some q := by rw [List.getElem?_eq_getElem hj, hjq]
      have g1 : q.send = some (.nrpn [page, number]) := by simpa using g1
      by_cases h44 : j < 44
      · obtain ⟨q', hq', hs⟩ := h.at h44
        rw [hq] at hq'
        simp only [Option.some.injEq] at hq'
        subst hq'
        have ht := head_table ⟨j, h44⟩ (skel q) hs.symm
        simp only [skel, hc, decide_eq_true_eq] at ht
        have := ht trivial
        subst this
        rw [at30] at hs
        simp only [Option.some.injEq] at hs
        have := congrArg Param.send hs
        have : q.send = t30.send := this
        rw [this] at g1
        simp [t30, skel, nrpn] at g1
        exact h40 (by simp [g1])
      · obtain ⟨k, e1, e2, -⟩ := h.extra j q (by omega) hq
        rw [e1] at hc
        simp only [List.head?_cons, Option.some.injEq] at hc
        rw [e2, hc] at g1
        simp at g1
        exact h40 (by simp [g1])

theorem use_inv {m : Machine} {c : Metronome} (h : Inv m c) (now : Int) (date : List Nat) (u : Use) :
    Inv (m.use now date u).1 (c.step (.use now date u)) := by
  obtain ⟨p, hp⟩ := h.view
  cases u with
  | tempo b => exact (setTempo_bpm h.shape now b).inv h.view h.button h.tap
  | rigButton on => exact ⟨h.view, h.bpm, h.pulse, h.small, h.button, h.tap⟩
  | dev e =>
    cases e with
    | rig n =>
      have k := setRigId_keep hp.shape n date
      refine h.of (r := { m with dev := (m.dev.setRigId n date).1 }) ⟨_, (setRigId_view hp n date).1⟩ ?_ ?_ rfl rfl
      · exact k.vals 29 (by decide)
      · exact k.vals 30 (by decide)
    | value page number v =>
      have hview : ∃ p, View (m.dev.ui date (.value page number v)).1 p := ⟨p, ui_view hp _ _ _ _⟩
      have h29 : val (m.dev.ui date (.value page number v)).1.params 29 = val m.dev.params 29 :=
        ui_other hp.shape _ _ _ _ (by decide) at29 (by simp [t29, skel, Setup.control])
      have h30 := ui_val hp.shape date page number v (i := 30) (by decide) at30
      by_cases h40 : (page, number) = (4, 0)
      · simp only [Prod.mk.injEq] at h40
        obtain ⟨rfl, rfl⟩ := h40
        obtain ⟨-, -, q, hq, -, hs, hf⟩ := hp.shape.sent (key := .nrpn [4, 0]) (i := 30) (by decide)
        rw [at30] at hs
        simp only [Option.some.injEq] at hs
        have hqv : q.value = .num (shown c.bpm) := by
          have := h.bpm
          simpa [val, hq] using this
        have hnb : q.noBuffer = false := congrArg Param.noBuffer hs
        have hrec : q.receive.head? = some (.nrpn [4, 0]) := by
          have := congrArg Param.receive hs
          rw [show q.receive = t30.receive from this]; rfl
        simp only [Machine.use, hf]
        cases v with
        | str s =>
          have hfi : fires q (.str s) = false := by simp [fires, hqv]
          rw [if_neg (by rw [hfi]; simp)]
          rw [if_neg (by simp [kind, t30, skel, nrpn, zero])] at h30
          exact h.of hview h29 h30 rfl rfl
        | num n =>
          rw [if_pos ⟨rfl, rfl⟩] at h30
          rw [fires_num hqv hnb]
          show Inv _ { c with bpm := ofValue n }
          by_cases hv : n = shown c.bpm
          · rw [if_neg (by simpa using hv)]
            have e : ofValue n = c.bpm := by rw [hv, ofValue_shown h.small]
            rw [e]
            exact h.of hview h29 (by rw [h30, h.bpm, hv]) rfl rfl
          · rw [if_pos (by simpa using hv)]
            have haf : ∀ (m' : Machine) (b : Device), m'.after b now q (.num n) = m'.setTempo now (bpmOf n) := by
              intro m' b
              simp only [Machine.after, hrec, if_true]
            simp only [haf]
            obtain ⟨p', hp'⟩ := hview
            have hb := setTempo_bpm (m := { m with dev := (m.dev.ui date (.value 4 0 (.num n))).1 }) hp'.shape now (bpmOf n)
            rw [← bpmOf_eq]
            exact hb.inv ⟨p', hp'⟩ (h29.trans h.button) h.tap
      · have e : c.step (.use now date (.dev (.value page number v))) = c := by
          simp only [Metronome.step]
          split
          · rename_i heq; simp at heq
          · rename_i heq; simp at heq
          · rename_i heq; simp at heq
          · rename_i heq; simp at heq; exact absurd (by simp [heq]) h40
          · rfl
        rw [e]
        rw [if_neg (by
          rintro ⟨hx, -⟩
          simp [t30, skel, nrpn] at hx
          exact h40 (by simp [hx]))] at h30
        have hbase : Inv { m with dev := (m.dev.ui date (.value page number v)).1 } c := h.of hview h29 h30 rfl rfl
        simp only [Machine.use]
        split
        · exact hbase
        · rename_i q hf
          obtain ⟨k1, k2, -⟩ := use_param hp.shape hf
          split
          · obtain ⟨a1, a2, a3, -⟩ := after_same (m := { m with dev := (m.dev.ui date (.value page number v)).1 }) (before := m.dev) (now := now) (v := v) k1
              (fun hx => absurd hx (k2 h40))
            exact hbase.of (by rw [a1]; exact hview) (by rw [a1]) (by rw [a1]) (by rw [a2]) a3
          · exact hbase

/-! ### Updates -/

/-- What an update does: `L` is the device after the light. -/
structure Upd (m r : Machine) (now : Int) : Prop where
  view : ∀ p, View m.dev p → View r.dev p
  vals : ∀ i t, Own i → T[i]? = some t → i ≠ 28 → val r.dev.params i = val m.dev.params i
  light : ∀ n, val m.dev.params 28 = some (.num n) →
    val r.dev.params 28 = some (.num (if (m.pulse.any fun p => p.over now) then (if n = 0 then 1 else 0) else n))
  pulse : r.pulse = m.pulse.map fun p => if p.over now then { p with lastReset := now } else p
  lastTap : r.lastTap = m.lastTap
  tuner : r.dev.tunerRunning = m.dev.tunerRunning
  rest : r.rigBtnMorph = m.rigBtnMorph ∧ r.morphBug = m.morphBug

theorem upd_frame {m : Machine} (h : ∃ p, View m.dev p) (now : Int) : Upd m (m.update now).1 now := by
  obtain ⟨p0, hp0⟩ := h
  have hview1 : ∀ p, View m.dev p → View (m.dev.update now).1 p := fun p hp => (any_step (e := .update now) hp trivial).1
  -- the light
  have hbeat : ∀ m1 : Machine, (∃ p, View m1.dev p) →
      (∀ p, View m1.dev p → View (m1.beat now).1.dev p) ∧
      (∀ i t, Own i → T[i]? = some t → i ≠ 28 → val (m1.beat now).1.dev.params i = val m1.dev.params i) ∧
      (∀ n, val m1.dev.params 28 = some (.num n) →
        val (m1.beat now).1.dev.params 28 = some (.num (if (m1.pulse.any fun p => p.over now) then (if n = 0 then 1 else 0) else n))) ∧
      (m1.beat now).1.pulse = (m1.pulse.map fun p => if p.over now then { p with lastReset := now } else p) ∧
      (m1.beat now).1 = { m1 with dev := (m1.beat now).1.dev, pulse := (m1.beat now).1.pulse } ∧
      (m1.beat now).1.dev.tunerRunning = m1.dev.tunerRunning := by
    rintro m1 ⟨p1, hp1⟩
    unfold Machine.beat
    cases hpu : m1.pulse with
    | none => simpa using hpu
    | some pu =>
      simp only
      by_cases ho : pu.over now = true
      · rw [if_pos ho]
        refine ⟨fun p hp => ui_view hp _ _ _ _, ?_, ?_, ?_, rfl, ?_⟩
        · intro i t hi ht h28
          refine ui_other hp1.shape _ _ _ _ hi ht ?_
          intro hsend
          have := sends_apart ⟨i, hi.1⟩ ⟨28, by decide⟩ (fun hx => h28 (congrArg Fin.val hx)) t ht t28 at28 hsend
          rw [hsend] at this
          simp at this
        · intro n hn
          rw [num_28 hp1.shape hn]
          simp only
          rw [ui_val hp1.shape [] 124 0 _ (i := 28) (by decide) at28, if_pos ⟨rfl, rfl⟩]
          simp [ho]
        · simp [ho]
        · obtain ⟨ps, hps⟩ := ui_rest hp1.shape [] (page := 124) (number := 0) (.num (if m1.dev.num (.nrpn [124, 0]) = 0 then 1 else 0)) (by decide) at28
            (.inl ⟨[124, 0], rfl, by decide⟩)
          simp only [hps]
      · rw [if_neg ho]
        refine ⟨fun _ hp => hp, fun _ _ _ _ _ => rfl, ?_, ?_, by simp, rfl⟩
        · intro n hn
          simp only [Option.any_some, ho]
          exact hn
        · simp [hpu, ho]
  -- the tuner
  have htune : ∀ m1 : Machine, (m1.tune now).1.dev = m1.dev ∧ (m1.tune now).1 = { m1 with tunerPeriod := (m1.tune now).1.tunerPeriod } := by
    intro m1
    have ht : m1.dev.tuner.1 = m1.dev := by
      unfold Device.tuner
      split <;> rfl
    unfold Machine.tune
    by_cases hr : m1.dev.tunerRunning = true
    · rw [if_pos hr]
      dsimp only
      by_cases he : (m1.tunerPeriod.exceeded now).1 = true
      · rw [if_pos he]; exact ⟨ht, by simp only [ht]⟩
      · rw [if_neg he]; exact ⟨rfl, rfl⟩
    · rw [if_neg hr]; exact ⟨rfl, rfl⟩
  -- the morphing
  have hmorph : ∀ m1 : Machine, (∃ p, View m1.dev p) →
      (∀ p, View m1.dev p → View m1.morph.1.dev p) ∧
      (∀ i t, Own i → T[i]? = some t → val m1.morph.1.dev.params i = val m1.dev.params i) ∧
      m1.morph.1 = { m1 with dev := m1.morph.1.dev, fadeTarget := m1.morph.1.fadeTarget } ∧ m1.morph.1.dev.tunerRunning = m1.dev.tunerRunning := by
    rintro m1 ⟨p1, hp1⟩
    unfold Machine.morph
    cases hft : m1.fadeTarget with
    | none => exact ⟨fun _ hp => hp, fun _ _ _ _ => rfl, by simp only, rfl⟩
    | some target =>
      simp only
      split
      · exact ⟨fun _ hp => hp, fun _ _ _ _ => rfl, rfl, rfl⟩
      · refine ⟨fun p hp => ui_view hp _ _ _ _, ?_, by rw [← hft], ?_⟩
        · intro i t hi ht
          refine ui_other hp1.shape _ _ _ _ hi ht ?_
          intro hsend
          have h34 : T[34]? = some (skel (nrpn 0 11 (.num 0) [.cc 11 (some 128)])) := rfl
          have := sends_apart ⟨i, hi.1⟩ ⟨34, by decide⟩ (fun hx => hi.2.2.2.2.2 (congrArg Fin.val hx)) t ht _ h34 hsend
          rw [hsend] at this
          simp at this
        · obtain ⟨ps, hps⟩ := ui_rest hp1.shape [] (page := 0) (number := 11) (.num (fade (m1.dev.num (.nrpn [0, 11])) target)) (i := 34) (by decide)
            (t := skel (nrpn 0 11 (.num 0) [.cc 11 (some 128)])) rfl (.inr ⟨some 128, rfl⟩)
          simp only [hps]
  have hv1 : ∃ p, View ({ m with dev := (m.dev.update now).1 } : Machine).dev p := ⟨p0, hview1 p0 hp0⟩
  obtain ⟨b1, b2, b3, b4, b5, b6⟩ := hbeat { m with dev := (m.dev.update now).1 } hv1
  obtain ⟨u1, u2⟩ := htune (Machine.beat { m with dev := (m.dev.update now).1 } now).1
  have hv2 : ∃ p, View ((Machine.beat { m with dev := (m.dev.update now).1 } now).1.tune now).1.dev p := ⟨p0, by rw [u1]; exact b1 _ (hview1 _ hp0)⟩
  obtain ⟨f1, f2, f3, f4⟩ := hmorph ((Machine.beat { m with dev := (m.dev.update now).1 } now).1.tune now).1 hv2
  have e : (m.update now).1 = ((Machine.beat { m with dev := (m.dev.update now).1 } now).1.tune now).1.morph.1 := rfl
  rw [e]
  refine ⟨fun p hp => f1 p (by rw [u1]; exact b1 p (hview1 p hp)), ?_, ?_, ?_, ?_, ?_, ?_⟩
  · intro i t hi ht h28
    rw [f2 i t hi ht, u1, b2 i t hi ht h28]
    rfl
  · intro n hn
    rw [f2 28 t28 (by decide) at28, u1]
    exact b3 n hn
  · rw [f3, u2]; exact b4
  · rw [f3, u2, b5]
  · rw [f4, u1, b6]; rfl
  · rw [f3, u2, b5]; exact ⟨rfl, rfl⟩

theorem update_inv {m : Machine} {c : Metronome} (h : Inv m c) (now : Int) : Inv (m.update now).1 c := by
  have u := upd_frame h.view now
  obtain ⟨p, hp⟩ := h.view
  refine h.of ⟨p, u.view p hp⟩ (u.vals 29 t29 (by decide) at29 (by decide)) (u.vals 30 t30 (by decide) at30 (by decide)) ?_ u.lastTap
  rw [u.pulse]
  cases m.pulse with
  | none => rfl
  | some q =>
    simp only [Option.map_some]
    split <;> rfl

theorem step_inv {m : Machine} {c : Metronome} (h : Inv m c) {e : Ev} (he : Proper e) : Inv (m.step e).1 (c.step e) := by
  cases e with
  | receive now date msg => exact receive_inv h now date he.1 he.2
  | update now => exact update_inv h now
  | use now date u => exact use_inv h now date u

theorem run_inv {m : Machine} {c : Metronome} (h : Inv m c) (es : List Ev) (he : ∀ e ∈ es, Proper e) :
    Inv (m.run es).1 (es.foldl Metronome.step c) := by
  induction es generalizing m c with
  | nil => exact h
  | cons e es ih => exact ih (step_inv h (he e (by simp))) fun e' h' => he e' (by simp [h'])

theorem initial_inv (bug : Bool) (now : Int) (date : List Nat) : Inv (initial bug now date) {} := by
  have hv := view_initial now date
  have hk := updateRig_keep (d := { proto := Virtual.initial 2 now, params := table date }) (by
    constructor
    · rfl
    · intro i e hi he
      have := (List.getElem?_eq_some_iff.1 he).1
      have hl : (table date).length = 44 := rfl
      simp only [hl] at this
      omega) date
  refine ⟨⟨_, hv⟩, ?_, by simp [initial, bpmValue, shown], by decide, ?_, rfl⟩
  · exact hk.vals 30 (by decide)
  · exact hk.vals 29 (by decide)

end PySwitch.Kemper.Machine
