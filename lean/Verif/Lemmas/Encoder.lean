import Verif.Spec.Encoder
import Verif.Lemmas.Num
/-
Helper lemmas for encoders.
-/
namespace PySwitch.Encoder

theorem sets_append (a b : List Eff) : sets (a ++ b) = sets a ++ sets b := by
  induction a with
  | nil => rfl
  | cons e a ih => cases e <;> simp [sets, ih]

theorem clamp_eq {c : Config} (h : c.min ≤ c.max) (v : Int) : clamp c v = limit c.min c.max v := by
  unfold clamp limit; simp only; split <;> split <;> omega

theorem clamp_range {c : Config} (h : c.min ≤ c.max) (v : Int) : c.min ≤ clamp c v ∧ clamp c v ≤ c.max := by
  rw [clamp_eq h]; unfold limit; omega

theorem cancel_ok {c : Config} {st st' : State} {i es} (h : cancel c st i = .ok (st', es)) :
    sets es = [] ∧ st'.active = false ∧ getValue c st = .ok st'.lastValue ∧ st'.value = st.value ∧
    st'.lastPos = st.lastPos ∧ st'.resetValue = st.resetValue ∧ st'.resetLast = st.resetLast := by
  unfold cancel at h
  cases hg : getValue c st with
  | error e => rw [hg] at h; simp at h
  | ok v =>
    rw [hg] at h
    simp only [Except.ok.injEq, Prod.mk.injEq] at h
    obtain ⟨rfl, rfl⟩ := h
    cases c.hasPreview <;> simp [sets]

/-- The other fields of the state. -/
def State.Same (st st' : State) : Prop := st'.resetValue = st.resetValue ∧ st'.resetLast = st.resetLast

theorem getValue_setValue {c : Config} (hs : ∀ k, c.scale = some k → 0 < k) (st : State) (v : Int) :
    getValue c (setValue c st v) = .ok (some v) := by
  unfold getValue setValue
  cases hk : c.scale with
  | none => rfl
  | some k =>
    have := hs k hk
    have hkr : (k : Rat) ≠ 0 := by
      have : (0 : Rat) < (k : Rat) := by exact_mod_cast this
      grind
    simp only [Except.ok.injEq, Option.some.injEq]
    have : ((v * k : Int) : Rat) / (k : Rat) = (v : Rat) := by
      rw [Rat.intCast_mul, Rat.div_def, Rat.mul_assoc, Rat.mul_inv_cancel _ hkr, Rat.mul_one]
    rw [this, pyInt_intCast]

theorem accept_ok {c : Config} {st st' : State} {es} (h : accept c st = .ok (st', es)) :
    (st' = st ∧ es = [] ∧ (st.lastValue = none ∨ st.lastValue = some (-1) ∨ (c.preselect = true ∧ st.active = false))) ∨
    (∃ v, st.lastValue = some v ∧ v ≠ -1 ∧ sets es = [v] ∧ st'.active = false ∧ st'.lastPos = st.lastPos ∧
      (c.preselect = true → st.active = true) ∧
      getValue c (setValue c st v) = .ok st'.lastValue ∧ st'.value = (setValue c st v).value) := by
  unfold accept at h
  cases hl : st.lastValue with
  | none =>
    rw [hl] at h
    simp only [Except.ok.injEq, Prod.mk.injEq] at h
    exact .inl ⟨h.1.symm, h.2.symm, .inl rfl⟩
  | some v =>
    rw [hl] at h
    simp only at h
    by_cases hv : v = -1
    · rw [if_pos hv] at h
      simp only [Except.ok.injEq, Prod.mk.injEq] at h
      exact .inl ⟨h.1.symm, h.2.symm, .inr (.inl (by rw [hv]))⟩
    · rw [if_neg hv] at h
      by_cases hp : (c.preselect && !st.active) = true
      · rw [if_pos hp] at h
        simp only [Except.ok.injEq, Prod.mk.injEq] at h
        simp only [Bool.and_eq_true, Bool.not_eq_true'] at hp
        exact .inl ⟨h.1.symm, h.2.symm, .inr (.inr hp)⟩
      · rw [if_neg hp] at h
        cases hc : cancel c (setValue c st v) false with
        | error e => rw [hc] at h; simp at h
        | ok r =>
          obtain ⟨s, es'⟩ := r
          rw [hc] at h
          simp only [Except.ok.injEq, Prod.mk.injEq] at h
          obtain ⟨rfl, rfl⟩ := h
          obtain ⟨h1, h2, h3, h4, h5, h6, h7⟩ := cancel_ok hc
          refine .inr ⟨v, rfl, hv, ?_, h2, ?_, ?_, h3, h4⟩
          · rw [List.cons_append]
            simp only [sets, sets_append, h1, List.nil_append]
            cases c.scale <;> cases s.lastValue <;> simp [sets]
            split <;> simp [sets]
          · rw [h5]; unfold setValue; split <;> rfl
          · intro hpre
            cases ha : st.active with
            | true => rfl
            | false => simp [hpre, ha] at hp

theorem checkReset_ok {c : Config} {st st' : State} {es} (h : checkReset c st = .ok (st', es)) :
    sets es = [] ∧ st'.lastPos = st.lastPos ∧ st'.value = st.value ∧
    ((st'.active = st.active ∧ st'.lastValue = st.lastValue) ∨
      (st'.active = false ∧ getValue c st = .ok st'.lastValue ∧ c.resetMapping = true)) := by
  unfold checkReset at h
  by_cases hcond : (c.hasPreview && c.preselect && c.resetMapping) = true
  · rw [if_pos hcond] at h
    by_cases h1 : st.resetValue ≠ st.resetLast
    · rw [if_pos h1] at h
      by_cases h2 : st.resetValue ≠ none ∧ st.resetLast ≠ none
      · simp only [if_pos h2] at h
        cases hca : cancel c st true with
        | error e => rw [hca] at h; simp at h
        | ok r =>
          obtain ⟨s, es'⟩ := r
          rw [hca] at h
          simp only [Except.ok.injEq, Prod.mk.injEq] at h
          obtain ⟨rfl, rfl⟩ := h
          obtain ⟨h1, h2, h3, h4, h5, _⟩ := cancel_ok hca
          exact ⟨h1, h5, h4, .inr ⟨h2, h3, by simp at hcond; exact hcond.2⟩⟩
      · simp only [if_neg h2, Except.ok.injEq, Prod.mk.injEq] at h
        obtain ⟨rfl, rfl⟩ := h
        exact ⟨rfl, rfl, rfl, .inl ⟨rfl, rfl⟩⟩
    · rw [if_neg h1] at h
      simp only [Except.ok.injEq, Prod.mk.injEq] at h
      obtain ⟨rfl, rfl⟩ := h
      exact ⟨rfl, rfl, rfl, .inl ⟨rfl, rfl⟩⟩
  · rw [if_neg hcond] at h
    simp only [Except.ok.injEq, Prod.mk.injEq] at h
    obtain ⟨rfl, rfl⟩ := h
    exact ⟨rfl, rfl, rfl, .inl ⟨rfl, rfl⟩⟩

/-- What turning does. `base` is the value it starts from. -/
theorem turned_ok {c : Config} {st st' : State} {position : Int} {es} (h : turned c st position = .ok (st', es)) :
    ∃ (gv : Option Int) (st₁ : State) (b : Int), getValue c st = .ok gv ∧
      st₁ = { (if gv = none then setValue c st 0 else st) with lastPos := position } ∧
      (if c.preselect then .ok st.lastValue else getValue c st₁) = .ok (some b) ∧
      st'.lastPos = position ∧
      ((st.lastValue = some (clamp c (b + (position - st.lastPos))) ∧ st' = st₁ ∧ es = []) ∨
       (st.lastValue ≠ some (clamp c (b + (position - st.lastPos))) ∧ c.preselect = true ∧ sets es = [] ∧
        st' = { st₁ with lastValue := some (clamp c (b + (position - st.lastPos))), active := true }) ∨
       (st.lastValue ≠ some (clamp c (b + (position - st.lastPos))) ∧ c.preselect = false ∧
        ∃ es', accept c { st₁ with lastValue := some (clamp c (b + (position - st.lastPos))) } = .ok (st', es') ∧
          sets es = sets es')) := by
  unfold turned at h
  cases hg : getValue c st with
  | error e => rw [hg] at h; simp at h
  | ok gv =>
    rw [hg] at h
    simp only at h
    have hlast : (if gv = none then setValue c st 0 else st).lastValue = st.lastValue ∧
        (if gv = none then setValue c st 0 else st).lastPos = st.lastPos := by
      split
      · unfold setValue; split <;> exact ⟨rfl, rfl⟩
      · exact ⟨rfl, rfl⟩
    generalize hst₀ : (if gv = none then setValue c st 0 else st) = st₀ at h hlast
    refine ⟨gv, { st₀ with lastPos := position }, ?_⟩
    rw [← hlast.2, ← hlast.1]
    cases hb : (if c.preselect = true then Except.ok st₀.lastValue else getValue c { st₀ with lastPos := position }) with
    | error e => rw [hb] at h; simp at h
    | ok b =>
      cases b with
      | none => rw [hb] at h; simp at h
      | some b =>
        rw [hb] at h
        simp only at h
        refine ⟨b, rfl, by rw [hst₀], rfl, ?_⟩
        generalize clamp c (b + (position - st₀.lastPos)) = v at h ⊢
        by_cases hv : st₀.lastValue = some v
        · rw [if_neg (by simp [hv])] at h
          simp only [Except.ok.injEq, Prod.mk.injEq] at h
          obtain ⟨rfl, rfl⟩ := h
          exact ⟨rfl, .inl ⟨hv, rfl, rfl⟩⟩
        · rw [if_pos hv] at h
          cases hp : c.preselect with
          | true =>
            rw [hp] at h
            simp only [if_true, Except.ok.injEq, Prod.mk.injEq] at h
            obtain ⟨rfl, rfl⟩ := h
            refine ⟨rfl, .inr (.inl ⟨hv, rfl, ?_, rfl⟩)⟩
            cases c.hasPreview <;> simp [sets]
          | false =>
            rw [hp] at h
            simp only [Bool.false_eq_true, if_false] at h
            cases ha : accept c { st₀ with lastPos := position, lastValue := some v } with
            | error e => rw [ha] at h; simp at h
            | ok r =>
              obtain ⟨s, es'⟩ := r
              rw [ha] at h
              simp only [Except.ok.injEq, Prod.mk.injEq] at h
              obtain ⟨rfl, rfl⟩ := h
              refine ⟨?_, .inr (.inr ⟨hv, rfl, es', rfl, ?_⟩)⟩
              · rcases accept_ok ha with ⟨rfl, _⟩ | ⟨_, _, _, _, _, h5, _⟩
                · rfl
                · exact h5
              · rw [sets_append]
                cases c.hasPreview <;> simp [sets]

theorem run_cons_ok {c : Config} {st st' : State} {o : Op} {os ess} (h : run c st (o :: os) = .ok (st', ess)) :
    ∃ st₁ es rest, step c st o = .ok (st₁, es) ∧ run c st₁ os = .ok (st', rest) ∧ ess = es :: rest := by
  simp only [run] at h
  cases hp : step c st o with
  | error x => rw [hp] at h; simp at h
  | ok p =>
    obtain ⟨st₁, es⟩ := p
    rw [hp] at h; simp only at h
    cases hr : run c st₁ os with
    | error x => rw [hr] at h; simp at h
    | ok q =>
      obtain ⟨st₂, rest⟩ := q
      rw [hr] at h; simp only [Except.ok.injEq, Prod.mk.injEq] at h
      obtain ⟨rfl, rfl⟩ := h
      exact ⟨_, _, _, rfl, hr, rfl⟩

theorem run_append {c : Config} {st st'' : State} {os os' ess} (h : run c st (os ++ os') = .ok (st'', ess)) :
    ∃ st' e₁ e₂, run c st os = .ok (st', e₁) ∧ run c st' os' = .ok (st'', e₂) ∧ ess = e₁ ++ e₂ := by
  induction os generalizing st ess with
  | nil => exact ⟨st, [], ess, rfl, h, rfl⟩
  | cons o os ih =>
    obtain ⟨st₁, es, rest, hs, hr, rfl⟩ := run_cons_ok h
    obtain ⟨st', e₁, e₂, h1, h2, rfl⟩ := ih hr
    exact ⟨st', es :: e₁, e₂, by simp [run, hs, h1], h2, rfl⟩

theorem run_single {c : Config} {st st' : State} {o ess} (h : run c st [o] = .ok (st', ess)) :
    ∃ es, step c st o = .ok (st', es) ∧ ess = [es] := by
  obtain ⟨st₁, es, rest, hs, hr, rfl⟩ := run_cons_ok h
  simp only [run, Except.ok.injEq, Prod.mk.injEq] at hr
  obtain ⟨rfl, rfl⟩ := hr
  exact ⟨es, hs, rfl⟩

/-- What `process` does. -/
theorem process_ok {c : Config} {st st' : State} {p : Int} {es} (h : process c st p = .ok (st', es)) :
    ∃ st₀ st₁ es₁, st₀ = (if st.lastPos = -1 then { st with lastPos := pyInt (p * c.step) } else st) ∧
      checkReset c st₀ = .ok (st₁, es₁) ∧ st₁.lastPos = st₀.lastPos ∧
      ((st₁.lastPos = pyInt (p * c.step) ∧ st' = st₁ ∧ es = es₁) ∨
       (st₁.lastPos ≠ pyInt (p * c.step) ∧ ∃ es₂, turned c st₁ (pyInt (p * c.step)) = .ok (st', es₂) ∧
          es = es₁ ++ es₂)) := by
  unfold process at h
  simp only at h
  generalize hst₀ : (if st.lastPos = -1 then { st with lastPos := pyInt (p * c.step) } else st) = st₀ at h
  cases hc : checkReset c st₀ with
  | error e => rw [hc] at h; simp at h
  | ok r =>
    obtain ⟨st₁, es₁⟩ := r
    rw [hc] at h
    simp only at h
    refine ⟨st₀, st₁, es₁, rfl, hc, (checkReset_ok hc).2.1, ?_⟩
    by_cases hp : st₁.lastPos = pyInt (p * c.step)
    · rw [if_pos hp] at h
      simp only [Except.ok.injEq, Prod.mk.injEq] at h
      exact .inl ⟨hp, h.1.symm, h.2.symm⟩
    · rw [if_neg hp] at h
      cases ht : turned c st₁ (pyInt (p * c.step)) with
      | error e => rw [ht] at h; simp at h
      | ok r =>
        obtain ⟨s, es₂⟩ := r
        rw [ht] at h
        simp only [Except.ok.injEq, Prod.mk.injEq] at h
        obtain ⟨rfl, rfl⟩ := h
        exact .inr ⟨hp, es₂, rfl, rfl⟩

theorem process_lastPos {c : Config} {st st' : State} {p : Int} {es} (h : process c st p = .ok (st', es)) :
    st'.lastPos = pyInt (p * c.step) := by
  obtain ⟨st₀, st₁, es₁, _, _, _, h | ⟨_, es₂, ht, _⟩⟩ := process_ok h
  · rw [h.2.1]; exact h.1
  · obtain ⟨_, _, _, _, _, _, h, _⟩ := turned_ok ht
    exact h

/-- While a preselection is active, the adjusted value is in the range. -/
def Inv (c : Config) (st : State) : Prop :=
  st.active = true → ∃ v, st.lastValue = some v ∧ c.min ≤ v ∧ v ≤ c.max

theorem process_inv {c : Config} (hc : c.min ≤ c.max) {st st' : State} {p : Int} {es} (hi : Inv c st)
    (h : process c st p = .ok (st', es)) : Inv c st' ∧ ∀ v ∈ sets es, c.min ≤ v ∧ v ≤ c.max := by
  obtain ⟨st₀, st₁, es₁, h0, hcr, _, hcase⟩ := process_ok h
  have hi₀ : Inv c st₀ := by
    rw [h0]; split
    · exact hi
    · exact hi
  obtain ⟨hs, _, _, hcr'⟩ := checkReset_ok hcr
  have hi₁ : Inv c st₁ := by
    rcases hcr' with ⟨a, b⟩ | ⟨a, _⟩
    · intro ha; rw [a] at ha; rw [b]; exact hi₀ ha
    · intro ha; rw [a] at ha; simp at ha
  rcases hcase with ⟨_, rfl, rfl⟩ | ⟨_, es₂, ht, rfl⟩
  · exact ⟨hi₁, by simp [hs]⟩
  · obtain ⟨gv, st₂, b, hg, h2, _, _, hcase⟩ := turned_ok ht
    have hact : st₂.active = st₁.active ∧ st₂.lastValue = st₁.lastValue := by
      rw [h2]; split
      · unfold setValue; split <;> exact ⟨rfl, rfl⟩
      · exact ⟨rfl, rfl⟩
    have hr := clamp_range hc (b + (pyInt (p * c.step) - st₁.lastPos))
    generalize clamp c (b + (pyInt (p * c.step) - st₁.lastPos)) = v at hcase hr
    rcases hcase with ⟨_, rfl, rfl⟩ | ⟨_, _, hes, rfl⟩ | ⟨_, hp, es', ha, hes⟩
    · refine ⟨?_, by simp [hs]⟩
      intro h; rw [hact.1] at h; rw [hact.2]; exact hi₁ h
    · refine ⟨fun _ => ⟨v, rfl, hr⟩, by simp [sets_append, hs, hes]⟩
    · rcases accept_ok ha with ⟨rfl, rfl, _⟩ | ⟨w, hw, _, hw', hact', _⟩
      · refine ⟨fun _ => ⟨v, rfl, hr⟩, ?_⟩
        simp [sets_append, hs, hes, sets]
      · simp only [Option.some.injEq] at hw
        subst hw
        refine ⟨fun h => by rw [hact'] at h; simp at h, ?_⟩
        simp [sets_append, hs, hes, hw', hr]

theorem step_inv {c : Config} (hc : c.min ≤ c.max) {st st' : State} {o : Op} {es} (hi : Inv c st)
    (h : step c st o = .ok (st', es)) : Inv c st' ∧ ∀ v ∈ sets es, c.min ≤ v ∧ v ≤ c.max := by
  cases o with
  | turn p => exact process_inv hc hi h
  | device v =>
    simp only [step, Except.ok.injEq, Prod.mk.injEq] at h
    obtain ⟨rfl, rfl⟩ := h
    exact ⟨hi, by simp [sets]⟩
  | resetMap v =>
    simp only [step, Except.ok.injEq, Prod.mk.injEq] at h
    obtain ⟨rfl, rfl⟩ := h
    exact ⟨hi, by simp [sets]⟩
  | accept =>
    simp only [step] at h
    split at h
    · rename_i hp
      rcases accept_ok h with ⟨rfl, rfl, _⟩ | ⟨v, hv, _, hs, ha, _, hact, _⟩
      · exact ⟨hi, by simp [sets]⟩
      · obtain ⟨w, hw, hr⟩ := hi (hact hp)
        rw [hv] at hw
        simp only [Option.some.injEq] at hw
        subst hw
        exact ⟨fun h => by rw [ha] at h; simp at h, by simp [hs, hr]⟩
    · simp only [Except.ok.injEq, Prod.mk.injEq] at h
      obtain ⟨rfl, rfl⟩ := h
      exact ⟨hi, by simp [sets]⟩
  | cancel =>
    obtain ⟨h1, h2, _⟩ := cancel_ok h
    exact ⟨fun h => by rw [h2] at h; simp at h, by simp [h1]⟩

end PySwitch.Encoder

namespace PySwitch.Encoder

/-- Turning in direct mode. -/
theorem turned_direct {c : Config} (hp : c.preselect = false) (hs : c.scale = none) {st : State} {v : Int}
    (hv : st.value = some v) (pos : Int) (hne : clamp c (v + (pos - st.lastPos)) ≠ -1) :
    ∃ st' es, turned c st pos = .ok (st', es) ∧ st'.lastPos = pos ∧
      (if st.lastValue = some (clamp c (v + (pos - st.lastPos))) then
        st'.value = some v ∧ st'.lastValue = st.lastValue ∧ sets es = []
      else st'.value = some (clamp c (v + (pos - st.lastPos))) ∧
        st'.lastValue = some (clamp c (v + (pos - st.lastPos))) ∧ sets es = [clamp c (v + (pos - st.lastPos))]) := by
  by_cases hl : st.lastValue = some (clamp c (v + (pos - st.lastPos)))
  · refine ⟨{ st with lastPos := pos }, [], ?_, rfl, ?_⟩
    · simp [turned, getValue, hs, hv, hp, hl]
    · rw [if_pos hl]; exact ⟨hv, rfl, rfl⟩
  · simp only [if_neg hl]
    refine ⟨⟨some (clamp c (v + (pos - st.lastPos))), pos, some (clamp c (v + (pos - st.lastPos))), false,
        st.resetValue, st.resetLast⟩,
      .set (clamp c (v + (pos - st.lastPos))) :: (if c.hasPreview then [.previewReset false] else []) ++
        (if c.hasPreview then [.preview (clamp c (v + (pos - st.lastPos)))] else []), ?_, rfl, rfl, rfl, ?_⟩
    · simp [turned, getValue, hs, hv, hp, hl, accept, hne, cancel, setValue]
    · cases c.hasPreview <;> simp [sets]

theorem process_direct {c : Config} (hp : c.preselect = false) (st : State) (p : Int) :
    process c st p =
      let st₀ := if st.lastPos = -1 then { st with lastPos := pyInt (p * c.step) } else st
      if st₀.lastPos = pyInt (p * c.step) then .ok (st₀, []) else turned c st₀ (pyInt (p * c.step)) := by
  unfold process
  simp only
  generalize (if st.lastPos = -1 then { st with lastPos := pyInt (p * c.step) } else st) = st₀
  have : checkReset c st₀ = .ok (st₀, []) := by simp [checkReset, hp]
  rw [this]
  simp only
  split
  · rfl
  · cases turned c st₀ (pyInt (p * c.step)) with
    | error e => rfl
    | ok r => rfl

end PySwitch.Encoder
