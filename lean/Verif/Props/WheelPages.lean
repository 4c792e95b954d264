import Verif.Lemmas.WheelPages

/-!
C170: a wheel with several actions, of which the enabled ones follow the wheel.
-/

namespace PySwitch.Props
open PySwitch.WheelPages PySwitch.WheelPages.Spec
open PySwitch.Encoder (Err Eff limit clamp)

namespace C170

/-- A direct action with a known value, whose last reading while it was enabled is `last`. -/
structure Dir (c : Encoder.Config) (st : Encoder.State) (last : Option Int) (v : Int) : Prop where
  value : st.value = some v
  range : c.min ≤ v ∧ v ≤ c.max
  lastValue : st.lastValue = some (-1) ∨ st.lastValue = some v
  pos : st.lastPos = match last with | none => -1 | some q => pyInt (q * c.step)
  ok : ∀ q, last = some q → pyInt (q * c.step) ≠ -1

/-- The value after a reading. -/
def next (c : Encoder.Config) (last : Option Int) (v p : Int) : Int :=
  match last with
  | none => v
  | some q => limit c.min c.max (v + (pyInt (p * c.step) - pyInt (q * c.step)))

/-- The parameters which are allowed here. -/
structure Direct (c : Encoder.Config) : Prop where
  direct : c.preselect = false
  scale : c.scale = none
  min : 0 ≤ c.min
  max : c.min ≤ c.max

theorem dir_process {c : Encoder.Config} (hc : Direct c) {st : Encoder.State} {last : Option Int} {v p : Int} (h : Dir c st last v)
    (hp : pyInt (p * c.step) ≠ -1) :
    ∃ st' es, Encoder.process c st p = .ok (st', es) ∧ Dir c st' (some p) (next c last v p) ∧
      (Encoder.sets es).getLast?.getD v = next c last v p := by
  rw [Encoder.process_direct hc.direct]
  cases last with
  | none =>
    have h1 : st.lastPos = -1 := h.pos
    simp only [h1, if_true]
    exact ⟨_, _, rfl, ⟨h.value, h.range, h.lastValue, rfl, by intro q hq; cases hq; exact hp⟩, rfl⟩
  | some q =>
    have h1 : st.lastPos = pyInt (q * c.step) := h.pos
    have h2 : ¬ st.lastPos = -1 := by rw [h1]; exact h.ok q rfl
    have hlim := Encoder.clamp_eq hc.max (v + (pyInt (p * c.step) - pyInt (q * c.step)))
    have hrange := Encoder.clamp_range hc.max (v + (pyInt (p * c.step) - pyInt (q * c.step)))
    simp only [if_neg h2]
    by_cases hq : st.lastPos = pyInt (p * c.step)
    · rw [if_pos hq]
      have hv : next c (some q) v p = v := by
        simp only [next]; rw [← hq, h1]; unfold limit; have := h.range; omega
      rw [hv]
      exact ⟨st, [], rfl, ⟨h.value, h.range, h.lastValue, hq, by intro q' hq'; cases hq'; exact hp⟩, rfl⟩
    · rw [if_neg hq]
      have hmin := hc.min
      obtain ⟨st', es, g1, g2, g3⟩ := Encoder.turned_direct hc.direct hc.scale h.value (pyInt (p * c.step)) (by rw [h1]; omega)
      rw [h1] at g3
      refine ⟨st', es, g1, ?_⟩
      simp only [next, ← hlim]
      split at g3
      · rename_i heq
        obtain ⟨h4, h5, h6⟩ := g3
        have hv : v = clamp c (v + (pyInt (p * c.step) - pyInt (q * c.step))) := by
          rcases h.lastValue with h' | h'
          · rw [h'] at heq; simp only [Option.some.injEq] at heq; omega
          · rw [h'] at heq; simpa using heq
        rw [← hv]
        exact ⟨⟨h4, h.range, by rw [h5]; exact h.lastValue, g2, by intro q' hq'; cases hq'; exact hp⟩, by rw [h6]; rfl⟩
      · obtain ⟨h4, h5, h6⟩ := g3
        exact ⟨⟨h4, hrange, .inr h5, g2, by intro q' hq'; cases hq'; exact hp⟩, by rw [h6]; rfl⟩

/-- Cancelling keeps it. -/
theorem dir_cancel {c : Encoder.Config} (hc : c.scale = none) {st st' : Encoder.State} {last : Option Int} {v : Int} (h : Dir c st last v)
    (hst : st' = st ∨ (st'.value = st.value ∧ st'.lastPos = st.lastPos ∧ st'.active = false ∧ Encoder.getValue c st = .ok st'.lastValue)) :
    Dir c st' last v := by
  rcases hst with rfl | ⟨h1, h2, -, h4⟩
  · exact h
  · refine ⟨h1.trans h.value, h.range, .inr ?_, h2.trans h.pos, h.ok⟩
    simp only [Encoder.getValue, hc, Except.ok.injEq] at h4
    rw [← h4, h.value]

theorem one_dir {as : List Action} (hd : ∀ a ∈ as, Direct a.enc) {i : Nat} {a : Action} (ha : as[i]? = some a) {p : Int}
    (hp : ∀ a ∈ as, pyInt (p * a.enc.step) ≠ -1) {s : WheelPages.State} {last : Nat → Option Int} {v : Nat → Int}
    (h : ∀ j, j < as.length → Dir (config as j) (s.encs j) (last j) (v j)) :
    ∃ s' es, one (config as) i a p s = .ok (s', es) ∧
      (∀ j, j < as.length → Dir (config as j) (s'.encs j) (if j = i then some p else last j) (if j = i then next (config as j) (last j) (v j) p else v j)) ∧
      ∀ j, j < as.length → (sent j es).getLast?.getD (v j) = if j = i then next (config as j) (last j) (v j) p else v j := by
  have hi : i < as.length := by
    rcases Nat.lt_or_ge i as.length with h | h
    · exact h
    · rw [List.getElem?_eq_none_iff.mpr h] at ha; cases ha
  have hcfg : config as i = a.enc := by simp [config, ha]
  have hmem : a ∈ as := List.mem_of_getElem? ha
  have hscale : ∀ k, (config as k).scale = none := by
    intro k
    simp only [config]
    cases hk : as[k]? with
    | none => rfl
    | some b => exact (hd b (List.mem_of_getElem? hk)).scale
  obtain ⟨st, es1, hpr, hdir, hset⟩ := dir_process (hd a hmem) (hcfg ▸ h i hi) (hp a hmem)
  have hone : ∃ s' es, one (config as) i a p s = .ok (s', es) := by
    unfold one
    rw [hpr]
    simp only
    split
    · rename_i l _ _
      obtain ⟨s2, es2, h2⟩ := cancelAll_fine hscale (i := i) (s.clients l) (s.put i st)
      rw [h2]
      exact ⟨_, _, rfl⟩
    · exact ⟨_, _, rfl⟩
  obtain ⟨s', es, hok⟩ := hone
  refine ⟨s', es, hok, ?_, ?_⟩
  · obtain ⟨st', es1', s2, es2, ks, h1, h2, h3, -, -⟩ := one_ok hok
    rw [hpr] at h1
    simp only [Except.ok.injEq, Prod.mk.injEq] at h1
    obtain ⟨rfl, rfl⟩ := h1
    intro j hj
    rw [h3]
    have hc := ((cancelAll_state h2).2 j).1
    by_cases hji : j = i
    · subst hji
      rw [if_pos rfl, if_pos rfl]
      refine dir_cancel (hscale j) ?_ hc
      simp only [State.put, if_true]
      rw [hcfg]
      exact hdir
    · rw [if_neg hji, if_neg hji]
      refine dir_cancel (hscale j) ?_ hc
      simp only [State.put, if_neg hji]
      exact h j hj
  · obtain ⟨st', es1', s2, es2, ks, h1, h2, h3, h4, -⟩ := one_ok hok
    rw [hpr] at h1
    simp only [Except.ok.injEq, Prod.mk.injEq] at h1
    obtain ⟨rfl, rfl⟩ := h1
    intro j hj
    rw [h4]
    by_cases hji : j = i
    · subst hji
      rw [if_pos rfl, sent_map_self, hcfg]
      exact hset
    · rw [if_neg hji, sent_map_other (fun e => hji e.symm)]
      rfl

theorem all_dir {as : List Action} (hd : ∀ a ∈ as, Direct a.enc) {p : Int} (hp : ∀ a ∈ as, pyInt (p * a.enc.step) ≠ -1) (on : Nat → Bool) :
    ∀ (bs : List Action) (i : Nat), (∀ k b, bs[k]? = some b → as[i + k]? = some b) → as.length = i + bs.length →
    ∀ {s : WheelPages.State} {last : Nat → Option Int} {v : Nat → Int},
    (∀ j, j < as.length → Dir (config as j) (s.encs j) (last j) (v j)) →
    ∃ s' es, all (config as) on p i bs s = .ok (s', es) ∧
      (∀ j, j < as.length → Dir (config as j) (s'.encs j) (if i ≤ j ∧ on j = true then some p else last j)
        (if i ≤ j ∧ on j = true then next (config as j) (last j) (v j) p else v j)) ∧
      ∀ j, j < as.length → (sent j es).getLast?.getD (v j) = if i ≤ j ∧ on j = true then next (config as j) (last j) (v j) p else v j := by
  intro bs
  induction bs with
  | nil =>
    intro i _ hlen s last v h
    have hno : ∀ j, j < as.length → ¬ (i ≤ j ∧ on j = true) := by
      intro j hj hh; simp only [List.length_nil] at hlen; omega
    refine ⟨s, [], rfl, fun j hj => ?_, fun j hj => ?_⟩
    · rw [if_neg (hno j hj), if_neg (hno j hj)]; exact h j hj
    · rw [if_neg (hno j hj)]; rfl
  | cons b bs ih =>
    intro i hget hlen s last v h
    have hget' : ∀ k b, bs[k]? = some b → as[i + 1 + k]? = some b := by
      intro k b' hk
      have := hget (k + 1) b' (by simpa using hk)
      rw [← this]; congr 1; omega
    have hlen' : as.length = i + 1 + bs.length := by simp only [List.length_cons] at hlen; omega
    cases ho : on i with
    | false =>
      obtain ⟨s', es, h1, h2, h3⟩ := ih (i + 1) hget' hlen' h
      refine ⟨s', es, by simp only [all, ho, Bool.not_false, if_true]; exact h1, fun j hj => ?_, fun j hj => ?_⟩
      · have heq : (i ≤ j ∧ on j = true) ↔ (i + 1 ≤ j ∧ on j = true) := by
          constructor
          · rintro ⟨ha, hb⟩
            refine ⟨?_, hb⟩
            rcases Nat.lt_or_ge i j with h | h
            · exact h
            · have : i = j := by omega
              subst this; rw [ho] at hb; cases hb
          · rintro ⟨ha, hb⟩; exact ⟨by omega, hb⟩
        simp only [heq]
        exact h2 j hj
      · have heq : (i ≤ j ∧ on j = true) ↔ (i + 1 ≤ j ∧ on j = true) := by
          constructor
          · rintro ⟨ha, hb⟩
            refine ⟨?_, hb⟩
            rcases Nat.lt_or_ge i j with h | h
            · exact h
            · have : i = j := by omega
              subst this; rw [ho] at hb; cases hb
          · rintro ⟨ha, hb⟩; exact ⟨by omega, hb⟩
        simp only [heq]
        exact h3 j hj
    | true =>
      obtain ⟨s1, es1, h1, h2, h3⟩ := one_dir hd (hget 0 b rfl) hp h
      obtain ⟨s', es2, g1, g2, g3⟩ := ih (i + 1) hget' hlen' h2
      refine ⟨s', es1 ++ es2, ?_, fun j hj => ?_, fun j hj => ?_⟩
      · simp only [all, ho, Bool.not_true, Bool.false_eq_true, if_false]
        rw [Nat.add_zero] at h1
        rw [h1]
        simp only
        rw [g1]
      · have := g2 j hj
        by_cases hji : j = i
        · subst hji
          simp only [Nat.add_zero, if_true, Nat.not_succ_le_self, false_and, if_false] at this
          simp only [Nat.le_refl, ho, and_self, if_true]
          exact this
        · have heq : (i ≤ j ∧ on j = true) ↔ (i + 1 ≤ j ∧ on j = true) :=
            ⟨fun ⟨a, b⟩ => ⟨by omega, b⟩, fun ⟨a, b⟩ => ⟨by omega, b⟩⟩
          simp only [heq]
          simp only [Nat.add_zero, if_neg hji] at this
          exact this
      · have a3 := h3 j hj
        have b3 := g3 j hj
        rw [sent_append, List.getLast?_append]
        by_cases hji : j = i
        · subst hji
          simp only [Nat.add_zero, if_true, Nat.not_succ_le_self, false_and, if_false] at a3 b3
          simp only [Nat.le_refl, ho, and_self, if_true]
          cases hl : (sent j es2).getLast? with
          | none => rw [Option.none_or]; exact a3
          | some w => rw [hl] at b3; simpa using b3
        · have heq : (i ≤ j ∧ on j = true) ↔ (i + 1 ≤ j ∧ on j = true) :=
            ⟨fun ⟨a, b⟩ => ⟨by omega, b⟩, fun ⟨a, b⟩ => ⟨by omega, b⟩⟩
          simp only [heq]
          simp only [Nat.add_zero, if_neg hji] at a3 b3
          cases hl : (sent j es2).getLast? with
          | none =>
            rw [Option.none_or, a3]
            rw [hl] at b3
            exact b3
          | some w => rw [hl] at b3; simpa using b3

/-- The value after all readings as the code computes it. -/
theorem run_dir {as : List Action} (hd : ∀ a ∈ as, Direct a.enc) :
    ∀ (rs : List (Int × (Nat → Bool))), (∀ a ∈ as, ∀ r ∈ rs, pyInt (r.1 * a.enc.step) ≠ -1) →
    ∀ {s : WheelPages.State} {last : Nat → Option Int} {v : Nat → Int},
    (∀ j, j < as.length → Dir (config as j) (s.encs j) (last j) (v j)) →
    ∃ s' es, run as s (rs.map fun r => .read r.1 r.2) = .ok (s', es) ∧
      ∀ j, j < as.length →
        (s'.encs j).value = some (followed (config as j).min (config as j).max (config as j).step (last j) (v j) ((readings j rs).filter (·.2))) ∧
        (sent j es).getLast?.getD (v j) = followed (config as j).min (config as j).max (config as j).step (last j) (v j) ((readings j rs).filter (·.2)) := by
  intro rs
  induction rs with
  | nil =>
    intro _ s last v h
    refine ⟨s, [], rfl, fun j hj => ⟨?_, ?_⟩⟩
    · rw [(h j hj).value]; cases last j <;> rfl
    · cases last j <;> rfl
  | cons r rs ih =>
    intro hp s last v h
    obtain ⟨p, on⟩ := r
    obtain ⟨s1, es1, h1, h2, h3⟩ := all_dir hd (fun a ha => hp a ha (p, on) (by simp)) on as 0 (fun k b hk => by rw [Nat.zero_add]; exact hk)
      (by omega) h
    obtain ⟨s', es2, g1, g2⟩ := ih (fun a ha r hr => hp a ha r (List.mem_cons_of_mem _ hr)) h2
    refine ⟨s', es1 ++ es2, ?_, fun j hj => ?_⟩
    · rw [List.map_cons, run]
      simp only [step, h1]
      rw [g1]
    · have a3 := h3 j hj
      obtain ⟨b1, b2⟩ := g2 j hj
      simp only [Nat.zero_le, true_and] at a3 b1 b2
      have hf : followed (config as j).min (config as j).max (config as j).step (last j) (v j) ((readings j ((p, on) :: rs)).filter (·.2)) =
          followed (config as j).min (config as j).max (config as j).step (if on j = true then some p else last j)
            (if on j = true then next (config as j) (last j) (v j) p else v j) ((readings j rs).filter (·.2)) := by
        simp only [readings]
        cases hon : on j with
        | false => simp
        | true =>
          simp only [List.filter_cons, if_true]
          cases last j <;> rfl
      rw [hf]
      refine ⟨b1, ?_⟩
      rw [sent_append, List.getLast?_append]
      cases hl : (sent j es2).getLast? with
      | none =>
        rw [Option.none_or, a3]
        rw [hl] at b2
        exact b2
      | some w => rw [hl] at b2; simpa using b2

theorem followed_returns {c : Encoder.Config} (hc : c.min ≤ c.max) : ∀ (rs : List (Int × Bool)) (last : Option Int) (on : Bool) (v : Int),
    c.min ≤ v ∧ v ≤ c.max → Returns last on rs → (on = true → last.isSome = true) →
    followed c.min c.max c.step last v (rs.filter (·.2)) = followed c.min c.max c.step (if on then last else none) v rs := by
  intro rs
  induction rs with
  | nil => intro last on v _ _ _; cases last <;> cases on <;> rfl
  | cons r rs ih =>
    intro last on v hv hr hs
    obtain ⟨p, e⟩ := r
    cases e with
    | false =>
      simp only [Returns] at hr
      have := ih last false v hv hr (by simp)
      rw [List.filter_cons]
      simp only [Bool.false_eq_true, if_false] at this ⊢
      rw [this]
      split <;> (try cases last) <;> rfl
    | true =>
      obtain ⟨h1, h2⟩ := hr
      rw [List.filter_cons]
      simp only [if_true]
      cases last with
      | none =>
        have : on = false := by cases on <;> simp_all
        subst this
        simp only [followed, Bool.false_eq_true, if_false]
        exact ih (some p) true v hv h2 (by simp)
      | some q =>
        have hlim : c.min ≤ limit c.min c.max (v + (pyInt (p * c.step) - pyInt (q * c.step))) ∧
            limit c.min c.max (v + (pyInt (p * c.step) - pyInt (q * c.step))) ≤ c.max := by unfold limit; omega
        have := ih (some p) true _ hlim h2 (by simp)
        simp only [if_true] at this
        simp only [followed]
        rw [this]
        cases on with
        | true => simp only [if_true, followed]
        | false =>
          have hq : q = p := by simpa using h1
          subst hq
          simp only [Bool.false_eq_true, if_false, followed, Int.sub_self, Int.add_zero]
          have : limit c.min c.max v = v := by unfold limit; omega
          rw [this]

end C170

/-- Every action of the wheel changes its value directly; the bank select encoder is not among them. -/
def c170Start (v : Nat → Int) : WheelPages.State := { encs := fun i => { value := some (v i) } }

/-- **C170**, what the wheel does: from known values in the ranges, each action follows the wheel through the readings at which it is
enabled, and what has been sent last is its value. All other readings are invisible for it, so that a turn which has been made in the meantime is
made up for at once, see the witness. -/
theorem C170_enabled (as : List Action) (hd : ∀ a ∈ as, a.enc.preselect = false ∧ a.enc.scale = none ∧ 0 ≤ a.enc.min ∧ a.enc.min ≤ a.enc.max)
    (v : Nat → Int) (hv : ∀ i a, as[i]? = some a → a.enc.min ≤ v i ∧ v i ≤ a.enc.max) (rs : List (Int × (Nat → Bool)))
    (hp : ∀ a ∈ as, ∀ r ∈ rs, pyInt (r.1 * a.enc.step) ≠ -1) :
    ∃ s es, run as (c170Start v) (rs.map fun r => .read r.1 r.2) = .ok (s, es) ∧ ∀ i a, as[i]? = some a →
      (s.encs i).value = some (followed a.enc.min a.enc.max a.enc.step none (v i) ((readings i rs).filter (·.2))) ∧
      (sent i es).getLast?.getD (v i) = followed a.enc.min a.enc.max a.enc.step none (v i) ((readings i rs).filter (·.2)) := by
  have hd' : ∀ a ∈ as, C170.Direct a.enc := fun a ha => ⟨(hd a ha).1, (hd a ha).2.1, (hd a ha).2.2.1, (hd a ha).2.2.2⟩
  have hcfg : ∀ i a, as[i]? = some a → config as i = a.enc := by intro i a h; simp [config, h]
  obtain ⟨s, es, h1, h2⟩ := C170.run_dir hd' rs hp (s := c170Start v) (last := fun _ => none) (v := v) (by
    intro j hj
    have hj' : as[j]? = some as[j] := List.getElem?_eq_getElem hj
    rw [hcfg j _ hj']
    exact ⟨rfl, hv j _ hj', .inl rfl, rfl, by intro q hq; cases hq⟩)
  refine ⟨s, es, h1, fun i a ha => ?_⟩
  have hi : i < as.length := by
    rcases Nat.lt_or_ge i as.length with h | h
    · exact h
    · rw [List.getElem?_eq_none_iff.mpr h] at ha; cases ha
  have := h2 i hi
  rw [hcfg i a ha] at this
  exact this

/-- **C170**: from known values in the ranges, each action follows the wheel while it is enabled, and only then, and what has been sent last is
its value. Missing: the wheel must have the same position as before when an action is enabled again, see the witness. -/
theorem C170_pages_partial (as : List Action) (hd : ∀ a ∈ as, a.enc.preselect = false ∧ a.enc.scale = none ∧ 0 ≤ a.enc.min ∧ a.enc.min ≤ a.enc.max)
    (v : Nat → Int) (hv : ∀ i a, as[i]? = some a → a.enc.min ≤ v i ∧ v i ≤ a.enc.max) (rs : List (Int × (Nat → Bool)))
    (hp : ∀ a ∈ as, ∀ r ∈ rs, pyInt (r.1 * a.enc.step) ≠ -1) :
    ∃ s es, run as (c170Start v) (rs.map fun r => .read r.1 r.2) = .ok (s, es) ∧ ∀ i a, as[i]? = some a → Returns none false (readings i rs) →
      (s.encs i).value = some (followed a.enc.min a.enc.max a.enc.step none (v i) (readings i rs)) ∧
      (sent i es).getLast?.getD (v i) = followed a.enc.min a.enc.max a.enc.step none (v i) (readings i rs) := by
  obtain ⟨s, es, h1, h2⟩ := C170_enabled as hd v hv rs hp
  refine ⟨s, es, h1, fun i a ha hr => ?_⟩
  have := h2 i a ha
  rw [C170.followed_returns (hd a (List.mem_of_getElem? ha)).2.2.2 _ _ false _ (hv i a ha) hr (by simp)] at this
  exact this

/-- **C170**, actions which are not enabled: a reading neither changes their values nor does it make them send something. This holds for all
actions, also with preselection, and in all states. -/
theorem C170_disabled (as : List Action) (s s' : WheelPages.State) (p : Int) (on : Nat → Bool) (es : List (Nat × Eff))
    (h : step as s (.read p on) = .ok (s', es)) (i : Nat) (hi : on i = false) :
    (s'.encs i).value = (s.encs i).value ∧ sent i es = [] := by
  simp only [step] at h
  generalize config as = cs at h
  revert s es
  generalize 0 = k
  induction as generalizing k with
  | nil =>
    intro s es h
    simp only [all, Except.ok.injEq, Prod.mk.injEq] at h
    rw [← h.1, ← h.2]; exact ⟨rfl, rfl⟩
  | cons a as ih =>
    intro s es h
    rcases all_cons_ok h with ⟨-, h⟩ | ⟨hk, s1, es1, es2, h1, h2, rfl⟩
    · exact ih _ _ _ h
    · obtain ⟨g1, g2⟩ := ih _ _ _ h2
      have hki : i ≠ k := by intro e; rw [e, hk] at hi; cases hi
      obtain ⟨st, e1, s2, e2, ks, q1, q2, q3, q4, -⟩ := one_ok h1
      refine ⟨?_, ?_⟩
      · rw [g1, q3]
        have : ((s.put k st).encs i) = s.encs i := by simp [State.put, hki]
        rcases ((cancelAll_state q2).2 i).1 with h' | h'
        · rw [h', this]
        · rw [h'.1, this]
      · rw [sent_append, g2, List.append_nil, q4, sent_map_other (fun e => hki e.symm)]

/-- Two actions on two pages, on the same display. -/
def c170Wheel : List Action := [⟨{ hasPreview := true }, some 0⟩, ⟨{ hasPreview := true }, some 0⟩]

/-- Page 0 or page 1 is selected. -/
def c170Page (n : Nat) : Nat → Bool := fun i => i == n

/-- The wheel is turned on page 0, then on page 1 and back again, and on page 0: the hypotheses are met, and both follow the wheel. -/
def c170Turns : List (Int × (Nat → Bool)) :=
  [(10, c170Page 0), (13, c170Page 0), (13, c170Page 1), (20, c170Page 1), (13, c170Page 1), (13, c170Page 0), (14, c170Page 0)]

example : (∀ a ∈ c170Wheel, a.enc.preselect = false ∧ a.enc.scale = none ∧ 0 ≤ a.enc.min ∧ a.enc.min ≤ a.enc.max) ∧
    (∀ i < 2, Returns none false (readings i c170Turns)) ∧ ∀ a ∈ c170Wheel, ∀ r ∈ c170Turns, pyInt (r.1 * a.enc.step) ≠ -1 := by
  refine ⟨by decide, ?_, by decide +kernel⟩
  intro i hi
  match i, hi with
  | 0, _ => simp [Returns, readings, c170Turns, c170Page]
  | 1, _ => simp [Returns, readings, c170Turns, c170Page]

example : followed 0 127 1 none 50 (readings 0 c170Turns) = 54 ∧ followed 0 127 1 none 60 (readings 1 c170Turns) = 60 := by decide +kernel

/-- What has been sent after a history, if there is no error. -/
def c170Sent (r : Except Err (WheelPages.State × List (Nat × Eff))) : Option (List (Nat × Int)) :=
  match r with
  | .ok (_, es) => some (WheelPages.Spec.sets es)
  | .error _ => none

/-- **C170** does not hold if the wheel has been turned on another page: on page 1 it is turned by 7. When page 0 is selected again, its parameter
jumps by 7 although the wheel has not been moved since. -/
theorem C170_jump_witness :
    c170Sent (run c170Wheel (c170Start fun _ => 50) (([(10, c170Page 0), (10, c170Page 1), (17, c170Page 1)] : List _).map fun r => .read r.1 r.2)) =
      some [(1, 57)] ∧
    c170Sent (run c170Wheel (c170Start fun _ => 50) (([(10, c170Page 0), (10, c170Page 1), (17, c170Page 1), (17, c170Page 0)] : List _).map
      fun r => .read r.1 r.2)) = some [(1, 57), (0, 57)] ∧
    followed 0 127 1 none 50 (readings 0 [(10, c170Page 0), (10, c170Page 1), (17, c170Page 1), (17, c170Page 0)]) = 50 := by
  refine ⟨?_, ?_, ?_⟩ <;> decide +kernel

end PySwitch.Props
