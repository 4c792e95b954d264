import Verif.Lemmas.WheelPages

/-!
Lemmas about preselections on a wheel with several actions.
-/

namespace PySwitch.WheelPages
open PySwitch.Encoder (Err Eff)
open PySwitch.WheelPages.Spec

/-- Nothing is shown. -/
def NoShow (es : List Eff) : Prop := ∀ v, Eff.preview v ∉ es

theorem cancel_shape {c : Encoder.Config} {st st' : Encoder.State} {i es} (h : Encoder.cancel c st i = .ok (st', es)) :
    es = if c.hasPreview then [.previewReset i] else [] := by
  unfold Encoder.cancel at h
  cases hg : Encoder.getValue c st with
  | error e => rw [hg] at h; simp at h
  | ok v =>
    rw [hg] at h
    simp only [Except.ok.injEq, Prod.mk.injEq] at h
    exact h.2.symm

theorem cancel_noShow {c : Encoder.Config} {st st' : Encoder.State} {i es} (h : Encoder.cancel c st i = .ok (st', es)) : NoShow es := by
  rw [cancel_shape h]
  intro v
  split <;> simp

theorem accept_shape {c : Encoder.Config} {st st' : Encoder.State} {es} (h : Encoder.accept c st = .ok (st', es)) :
    (st' = st ∧ es = []) ∨
    (∃ v, st.lastValue = some v ∧ v ≠ -1 ∧ st'.active = false ∧ (c.preselect = true → st.active = true) ∧ NoShow es ∧ Encoder.sets es = [v] ∧
      (c.hasPreview = true → .previewReset false ∈ es)) := by
  rcases Encoder.accept_ok h with ⟨h1, h2, -⟩ | ⟨v, h1, h2, h3, h4, -, h6, -⟩
  · exact .inl ⟨h1, h2⟩
  · refine .inr ⟨v, h1, h2, h4, h6, ?_⟩
    unfold Encoder.accept at h
    rw [h1] at h
    simp only at h
    rw [if_neg h2] at h
    split at h
    · simp only [Except.ok.injEq, Prod.mk.injEq] at h
      rw [← h.2] at h3; cases h3
    · cases hc : Encoder.cancel c (Encoder.setValue c st v) false with
      | error e => rw [hc] at h; simp at h
      | ok r =>
        obtain ⟨s1, es1⟩ := r
        rw [hc] at h
        simp only [Except.ok.injEq, Prod.mk.injEq] at h
        obtain ⟨rfl, rfl⟩ := h
        refine ⟨?_, h3, ?_⟩
        · intro w hw
          simp only [List.cons_append, List.mem_cons, List.mem_append, reduceCtorEq, false_or] at hw
          rcases hw with hw | hw
          · exact cancel_noShow hc w hw
          · split at hw
            · split at hw <;> simp at hw
            · simp at hw
        · intro hp
          rw [cancel_shape hc, if_pos hp]
          simp

theorem checkReset_shape {c : Encoder.Config} {st st' : Encoder.State} {es} (h : Encoder.checkReset c st = .ok (st', es)) :
    (es = [] ∧ st'.active = st.active ∧ st'.lastValue = st.lastValue) ∨
    (es = [.previewReset true] ∧ st'.active = false ∧ c.resetMapping = true ∧ c.hasPreview = true) := by
  unfold Encoder.checkReset at h
  split at h
  · rename_i hc
    simp only [Bool.and_eq_true] at hc
    split at h
    · split at h
      · cases hr : Encoder.cancel c st true with
        | error e => rw [hr] at h; simp at h
        | ok r =>
          obtain ⟨s1, es1⟩ := r
          rw [hr] at h
          simp only [Except.ok.injEq, Prod.mk.injEq] at h
          obtain ⟨rfl, rfl⟩ := h
          rw [cancel_shape hr, if_pos hc.1.1]
          exact .inr ⟨rfl, (Encoder.cancel_ok hr).2.1, hc.2, hc.1.1⟩
      · simp only [Except.ok.injEq, Prod.mk.injEq] at h
        obtain ⟨rfl, rfl⟩ := h
        exact .inl ⟨rfl, rfl, rfl⟩
    · simp only [Except.ok.injEq, Prod.mk.injEq] at h
      obtain ⟨rfl, rfl⟩ := h
      exact .inl ⟨rfl, rfl, rfl⟩
  · simp only [Except.ok.injEq, Prod.mk.injEq] at h
    obtain ⟨rfl, rfl⟩ := h
    exact .inl ⟨rfl, rfl, rfl⟩

theorem turned_shape {c : Encoder.Config} {st st' : Encoder.State} {p : Int} {es} (h : Encoder.turned c st p = .ok (st', es)) :
    (es = [] ∧ st'.active = st.active ∧ st'.lastValue = st.lastValue) ∨
    (∃ es0 v, es = es0 ++ (if c.hasPreview then [.preview v] else []) ∧ NoShow es0 ∧ (c.hasPreview = false → ∀ b, .previewReset b ∉ es0) ∧
      (c.preselect = true → es0 = [] ∧ st'.active = true ∧ st'.lastValue = some v)) := by
  unfold Encoder.turned at h
  cases hg : Encoder.getValue c st with
  | error e => rw [hg] at h; simp at h
  | ok gv =>
    rw [hg] at h
    simp only at h
    have hlast : (if gv = none then Encoder.setValue c st 0 else st).lastValue = st.lastValue ∧
        (if gv = none then Encoder.setValue c st 0 else st).active = st.active := by
      split
      · unfold Encoder.setValue; split <;> exact ⟨rfl, rfl⟩
      · exact ⟨rfl, rfl⟩
    generalize (if gv = none then Encoder.setValue c st 0 else st) = st₀ at h hlast
    split at h
    · simp at h
    · simp at h
    · rename_i b _
      generalize Encoder.clamp c (b + (p - st₀.lastPos)) = v at h
      split at h
      · split at h
        · rename_i hp
          simp only [Except.ok.injEq, Prod.mk.injEq] at h
          obtain ⟨rfl, rfl⟩ := h
          exact .inr ⟨[], v, rfl, by intro w; simp, by simp, fun _ => ⟨rfl, rfl, rfl⟩⟩
        · rename_i hp
          split at h
          · simp at h
          · rename_i s1 es1 ha
            simp only [Except.ok.injEq, Prod.mk.injEq] at h
            obtain ⟨rfl, rfl⟩ := h
            refine .inr ⟨es1, v, rfl, ?_, ?_, fun hh => absurd hh hp⟩
            · rcases accept_shape ha with ⟨-, rfl⟩ | ⟨_, _, _, _, _, hn, _⟩
              · intro w; simp
              · exact hn
            · intro hnp b' hm
              unfold Encoder.accept at ha
              split at ha
              · simp only [Except.ok.injEq, Prod.mk.injEq] at ha; rw [← ha.2] at hm; cases hm
              · split at ha
                · simp only [Except.ok.injEq, Prod.mk.injEq] at ha; rw [← ha.2] at hm; cases hm
                · split at ha
                  · simp only [Except.ok.injEq, Prod.mk.injEq] at ha; rw [← ha.2] at hm; cases hm
                  · split at ha
                    · simp at ha
                    · rename_i s2 es2 hc
                      simp only [Except.ok.injEq, Prod.mk.injEq] at ha
                      rw [← ha.2, cancel_shape hc, hnp] at hm
                      simp only [Bool.false_eq_true, if_false, List.cons_append, List.nil_append, List.mem_cons, reduceCtorEq, false_or] at hm
                      split at hm
                      · split at hm <;> simp at hm
                      · simp at hm
      · simp only [Except.ok.injEq, Prod.mk.injEq] at h
        obtain ⟨rfl, rfl⟩ := h
        exact .inl ⟨rfl, hlast.2, hlast.1⟩

/-- What processing a position does, as far as the display is concerned. -/
theorem process_shape {c : Encoder.Config} {st st' : Encoder.State} {p : Int} {es} (h : Encoder.process c st p = .ok (st', es)) :
    (es = [] ∧ st'.active = st.active ∧ st'.lastValue = st.lastValue) ∨
    (es = [.previewReset true] ∧ st'.active = false ∧ c.resetMapping = true ∧ c.hasPreview = true) ∨
    (∃ es0 v, es = es0 ++ (if c.hasPreview then [.preview v] else []) ∧ NoShow es0 ∧ (c.hasPreview = false → ∀ b, .previewReset b ∉ es0) ∧
      (c.preselect = true → st'.active = true ∧ st'.lastValue = some v)) := by
  unfold Encoder.process at h
  simp only at h
  have h0 : (if st.lastPos = -1 then { st with lastPos := pyInt (p * c.step) } else st).active = st.active ∧
      (if st.lastPos = -1 then { st with lastPos := pyInt (p * c.step) } else st).lastValue = st.lastValue := by
    split <;> exact ⟨rfl, rfl⟩
  generalize (if st.lastPos = -1 then { st with lastPos := pyInt (p * c.step) } else st) = st₀ at h h0
  split at h
  · simp at h
  · rename_i s1 es1 hcr
    have hcr := checkReset_shape hcr
    split at h
    · simp only [Except.ok.injEq, Prod.mk.injEq] at h
      obtain ⟨rfl, rfl⟩ := h
      rcases hcr with ⟨h1, h2, h3⟩ | h1
      · exact .inl ⟨h1, h2.trans h0.1, h3.trans h0.2⟩
      · exact .inr (.inl h1)
    · split at h
      · simp at h
      · rename_i s2 es2 ht
        simp only [Except.ok.injEq, Prod.mk.injEq] at h
        obtain ⟨rfl, rfl⟩ := h
        rcases turned_shape ht with ⟨rfl, t2, t3⟩ | ⟨es0, v, rfl, t2, t3, t4⟩
        · rw [List.append_nil]
          rcases hcr with ⟨h1, h2, h3⟩ | ⟨h1, h2, h3⟩
          · exact .inl ⟨h1, (t2.trans h2).trans h0.1, (t3.trans h3).trans h0.2⟩
          · exact .inr (.inl ⟨h1, t2.trans h2, h3⟩)
        · refine .inr (.inr ⟨es1 ++ es0, v, by rw [List.append_assoc], ?_, ?_, fun hp => (t4 hp).2⟩)
          · intro w hw
            rcases List.mem_append.mp hw with hw | hw
            · rcases hcr with ⟨h1, _⟩ | ⟨h1, _⟩ <;> rw [h1] at hw <;> simp at hw
            · exact t2 w hw
          · intro hnp b hw
            rcases List.mem_append.mp hw with hw | hw
            · rcases hcr with ⟨h1, _⟩ | ⟨h1, _, _, h4⟩
              · rw [h1] at hw; simp at hw
              · rw [h4] at hnp; cases hnp
            · exact t3 hnp b hw

/-! ### What is shown -/

theorem lastShown_append (on : Nat → Bool) (a b : List (Nat × Eff)) : ∀ x, lastShown on x (a ++ b) = lastShown on (lastShown on x a) b := by
  induction a with
  | nil => intro x; rfl
  | cons e a ih => intro x; obtain ⟨j, e⟩ := e; cases e <;> simp only [List.cons_append, lastShown, ih]

theorem display_append (on : Nat → Bool) (a b : List (Nat × Eff)) : ∀ x, display on x (a ++ b) = display on (display on x a) b := by
  induction a with
  | nil => intro x; rfl
  | cons e a ih => intro x; obtain ⟨j, e⟩ := e; cases e <;> simp only [List.cons_append, display, ih]

theorem lastShown_none (on : Nat → Bool) (i : Nat) : ∀ (es : List Eff), NoShow es → ∀ x, lastShown on x (es.map fun e => (i, e)) = x
  | [], _, x => rfl
  | e :: es, h, x => by
    have h' : NoShow es := fun v hv => h v (List.mem_cons_of_mem _ hv)
    cases e with
    | preview v => exact absurd (List.mem_cons_self ..) (h v)
    | set v => exact lastShown_none on i es h' x
    | previewReset b => exact lastShown_none on i es h' x
    | bank b => exact lastShown_none on i es h' x

/-- An action which does not use the display does nothing with it. -/
theorem display_other {on : Nat → Bool} {i : Nat} (hi : on i = false) : ∀ (es : List Eff) x, display on x (es.map fun e => (i, e)) = x ∧
    lastShown on x (es.map fun e => (i, e)) = x
  | [], x => ⟨rfl, rfl⟩
  | e :: es, x => by cases e <;> simp [display, lastShown, hi, display_other hi es x]

/-- Effects without a preview leave the display or reset it. -/
theorem display_noShow {on : Nat → Bool} (i : Nat) : ∀ (es : List Eff), NoShow es → ∀ x,
    (display on x (es.map fun e => (i, e)) = x ∧ (on i = true → ∀ b, .previewReset b ∉ es)) ∨ display on x (es.map fun e => (i, e)) = none
  | [], _, x => .inl ⟨rfl, fun _ b hb => by cases hb⟩
  | e :: es, h, x => by
    have h' : NoShow es := fun v hv => h v (List.mem_cons_of_mem _ hv)
    cases e with
    | preview v => exact absurd (List.mem_cons_self ..) (h v)
    | set v =>
      rcases display_noShow (on := on) i es h' x with ⟨h1, h2⟩ | h1
      · exact .inl ⟨h1, fun ho b hb => by simp only [List.mem_cons, reduceCtorEq, false_or] at hb; exact h2 ho b hb⟩
      · exact .inr h1
    | bank v =>
      rcases display_noShow (on := on) i es h' x with ⟨h1, h2⟩ | h1
      · exact .inl ⟨h1, fun ho b hb => by simp only [List.mem_cons, reduceCtorEq, false_or] at hb; exact h2 ho b hb⟩
      · exact .inr h1
    | previewReset b =>
      simp only [List.map_cons, display]
      cases ho : on i with
      | false =>
        left
        refine ⟨?_, by simp⟩
        simp only [Bool.false_eq_true, if_false]
        exact (display_other ho es x).1
      | true =>
        right
        rw [if_pos rfl]
        rcases display_noShow (on := on) i es h' none with ⟨h1, _⟩ | h1
        · exact h1
        · exact h1

theorem mem_reset_display {on : Nat → Bool} {i : Nat} (ho : on i = true) {es : List Eff} (h : NoShow es) {b : Bool} (hb : .previewReset b ∈ es) (x) :
    display on x (es.map fun e => (i, e)) = none := by
  rcases display_noShow (on := on) i es h x with ⟨_, h2⟩ | h1
  · exact absurd hb (h2 ho b)
  · exact h1

end PySwitch.WheelPages
