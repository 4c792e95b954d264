import Verif.Spec.Preview
import Verif.Lemmas.Num
/-
Helper lemmas for value previews.
-/
namespace PySwitch.Preview

theorem run_append (c : Config) (st : State) (a b : List Op) :
    (run c st (a ++ b)).1 = (run c (run c st a).1 b).1 := by
  induction a generalizing st with
  | nil => rfl
  | cons o a ih => simp only [List.cons_append, run]; exact ih _

theorem run_append_snd (c : Config) (st : State) (a b : List Op) :
    (run c st (a ++ b)).2 = (run c st a).2 ++ (run c (run c st a).1 b).2 := by
  induction a generalizing st with
  | nil => rfl
  | cons o a ih => simp only [List.cons_append, run]; rw [ih]

/-- What `updateLabel` leaves alone. -/
theorem updateLabel_same (c : Config) (st : State) :
    updateLabel c st = { st with text := (updateLabel c st).text } := by
  unfold updateLabel
  split
  · split
    · split <;> rfl
    · rfl
  · split <;> rfl

theorem updateLabel_none {c : Config} (hc : c.callback = true) {st : State} (h : hasOverride st = false) :
    (updateLabel c st).text = st.content := by
  unfold hasOverride at h
  unfold updateLabel
  cases ho : st.override with
  | none => simp [hc]
  | some t =>
    rw [ho] at h
    have : t = "" := by simpa using h
    simp [this, hc]

theorem updateLabel_some {c : Config} {st : State} {t : String} (h : st.override = some t) (ht : t ≠ "") :
    (updateLabel c st).text = t := by
  unfold updateLabel
  rw [h]
  simp [ht]

theorem updateBlink_same (c : Config) (st : State) (now : Int) :
    (updateBlink c st now).override = st.override ∧ (updateBlink c st now).text = st.text ∧
    (updateBlink c st now).content = st.content ∧ (updateBlink c st now).period = st.period ∧
    (updateBlink c st now).stay = st.stay := by
  unfold updateBlink
  split
  · simp
  · simp only
    split <;> simp

/-- The label shows the preview text `t`; with a timeout at `d`, if it does not stay. -/
structure Showing (t : String) (stay : Bool) (period : Option PeriodCounter) (st : State) : Prop where
  ov : st.override = some t
  text : st.text = t
  stay : st.stay = stay
  period : st.period = period

/-- The label shows its normal text. -/
structure Normal (st : State) : Prop where
  ov : hasOverride st = false
  text : st.text = st.content

theorem Normal.step {c : Config} (hc : c.callback = true) {st : State} (h : Normal st) {o : Op}
    (ho : o.passive = true) : Normal (step c st o).1 ∧ (step c st o).1.content = latestContent st.content [o] := by
  cases o with
  | preview _ _ => simp [Op.passive] at ho
  | reset _ _ => simp [Op.passive] at ho
  | update t => simp only [Preview.step, update, h.ov]; exact ⟨h, rfl⟩
  | content s =>
    simp only [Preview.step, latestContent]
    have h2 : hasOverride { st with content := s } = false := h.ov
    have h3 := updateLabel_none hc h2
    rw [updateLabel_same]
    exact ⟨⟨h.ov, h3⟩, rfl⟩

theorem Normal.run {c : Config} (hc : c.callback = true) {st : State} (h : Normal st) {os : List Op}
    (ho : ∀ o ∈ os, o.passive = true) :
    Normal (run c st os).1 ∧ (run c st os).1.content = latestContent st.content os := by
  induction os generalizing st with
  | nil => exact ⟨h, rfl⟩
  | cons o os ih =>
    obtain ⟨h1, h2⟩ := h.step hc (ho o (by simp))
    obtain ⟨h3, h4⟩ := ih h1 (fun o ho' => ho o (List.mem_cons_of_mem _ ho'))
    simp only [Preview.run]
    refine ⟨h3, ?_⟩
    rw [h4, h2]
    cases o <;> rfl

/-- A passive operation while the preview text is shown. -/
theorem Showing.step {c : Config} {t : String} (ht : t ≠ "") {stay : Bool} {p : Option PeriodCounter} {st : State}
    (h : Showing t stay p st) {o : Op} (ho : o.passive = true) :
    (step c st o).1.content = latestContent st.content [o] ∧
    ((Showing t stay p (step c st o).1 ∧
        (stay = true ∨ p = none ∨ ∃ q, p = some q ∧ o.updateAfter (q.lastReset + q.interval) = false)) ∨
     ((c.callback = true → Normal (step c st o).1) ∧ stay = false ∧
        ∃ q, p = some q ∧ o.updateAfter (q.lastReset + q.interval) = true)) := by
  cases o with
  | preview _ _ => simp [Op.passive] at ho
  | reset _ _ => simp [Op.passive] at ho
  | content s =>
    simp only [Preview.step, latestContent]
    have h3 := updateLabel_some (c := c) (st := { st with content := s }) h.ov ht
    rw [updateLabel_same]
    refine ⟨rfl, .inl ⟨⟨h.ov, h3, h.stay, h.period⟩, ?_⟩⟩
    cases p with
    | none => exact .inr (.inl rfl)
    | some q => exact .inr (.inr ⟨q, rfl, rfl⟩)
  | update s =>
    have hov : hasOverride st = true := by unfold hasOverride; rw [h.ov]; simpa using ht
    simp only [Preview.step, update, hov, if_true, latestContent]
    obtain ⟨b1, b2, b3, b4, b5⟩ := updateBlink_same c (updateTimeout c st s) s
    rw [b3]
    unfold hasOverride at *
    cases stay with
    | true =>
      have e : updateTimeout c st s = st := by unfold updateTimeout; simp [h.stay]
      rw [e] at b1 b2 b3 b4 b5 ⊢
      exact ⟨rfl, .inl ⟨⟨by rw [b1]; exact h.ov, by rw [b2]; exact h.text, by rw [b5]; exact h.stay,
        by rw [b4]; exact h.period⟩, .inl rfl⟩⟩
    | false =>
      cases p with
      | none =>
        have e : updateTimeout c st s = st := by unfold updateTimeout; simp [h.stay, h.period]
        rw [e] at b1 b2 b3 b4 b5 ⊢
        exact ⟨rfl, .inl ⟨⟨by rw [b1]; exact h.ov, by rw [b2]; exact h.text, by rw [b5]; exact h.stay,
          by rw [b4]; exact h.period⟩, .inr (.inl rfl)⟩⟩
      | some q =>
        by_cases hq : q.lastReset + q.interval < s
        · have e : updateTimeout c st s =
              updateLabel c { st with period := some { q with lastReset := s }, override := none } := by
            unfold updateTimeout; simp [h.stay, h.period, PeriodCounter.exceeded, hq]
          rw [e] at b1 b2 b3 b4 b5 ⊢
          refine ⟨by rw [updateLabel_same], .inr ⟨fun hc => ⟨?_, ?_⟩, rfl, q, rfl, by simp [Op.updateAfter, hq]⟩⟩
          · unfold hasOverride; rw [b1, updateLabel_same]
          · rw [b2, b3]
            rw [updateLabel_none hc rfl, updateLabel_same]
        · have e : updateTimeout c st s = st := by
            have hst := h.stay
            have hp := h.period
            cases st
            simp only at hst hp
            simp [updateTimeout, hst, hp, PeriodCounter.exceeded, hq]
          rw [e] at b1 b2 b3 b4 b5 ⊢
          exact ⟨rfl, .inl ⟨⟨by rw [b1]; exact h.ov, by rw [b2]; exact h.text, by rw [b5]; exact h.stay,
            by rw [b4]; exact h.period⟩, .inr (.inr ⟨q, rfl, by simp [Op.updateAfter, hq]⟩)⟩⟩

/-- The preview text stays while it has not timed out. -/
theorem Showing.keep {c : Config} {t : String} (ht : t ≠ "") {stay : Bool} {p : Option PeriodCounter} {st : State}
    (h : Showing t stay p st) {os : List Op} (ho : ∀ o ∈ os, o.passive = true)
    (hn : stay = false → ∀ q, p = some q → ∀ o ∈ os, o.updateAfter (q.lastReset + q.interval) = false) :
    Showing t stay p (run c st os).1 ∧ (run c st os).1.content = latestContent st.content os := by
  induction os generalizing st with
  | nil => exact ⟨h, rfl⟩
  | cons o os ih =>
    obtain ⟨h1, h2 | ⟨_, h3, q, h4, h5⟩⟩ := h.step (c := c) ht (ho o (by simp))
    · obtain ⟨h3, h4⟩ := ih h2.1 (fun o ho' => ho o (List.mem_cons_of_mem _ ho'))
        (fun a b c d e => hn a b c d (List.mem_cons_of_mem _ e))
      simp only [Preview.run]
      refine ⟨h3, ?_⟩
      rw [h4, h1]
      cases o <;> rfl
    · rw [hn h3 q h4 o (by simp)] at h5; simp at h5

/-- The preview text disappears with the first update after the timeout. -/
theorem Showing.ends {c : Config} (hc : c.callback = true) {t : String} (ht : t ≠ "") {q : PeriodCounter} {st : State}
    (h : Showing t false (some q) st) {os : List Op} (ho : ∀ o ∈ os, o.passive = true)
    (hn : ∃ o ∈ os, o.updateAfter (q.lastReset + q.interval) = true) :
    Normal (run c st os).1 ∧ (run c st os).1.content = latestContent st.content os := by
  induction os generalizing st with
  | nil => simp at hn
  | cons o os ih =>
    have hos : ∀ o ∈ os, o.passive = true := fun o ho' => ho o (List.mem_cons_of_mem _ ho')
    have hl : latestContent (latestContent st.content [o]) os = latestContent st.content (o :: os) := by
      cases o <;> rfl
    obtain ⟨h1, ⟨h2, h3⟩ | ⟨h3, _⟩⟩ := h.step (c := c) ht (ho o (by simp))
    · have : ∃ o ∈ os, o.updateAfter (q.lastReset + q.interval) = true := by
        obtain ⟨o', ho', hu⟩ := hn
        rcases List.mem_cons.1 ho' with rfl | ho'
        · rcases h3 with h3 | h3 | ⟨q', h3, h4⟩
          · simp at h3
          · simp at h3
          · simp only [Option.some.injEq] at h3
            subst h3
            rw [hu] at h4; simp at h4
        · exact ⟨o', ho', hu⟩
      obtain ⟨h4, h5⟩ := ih h2 hos this
      simp only [Preview.run]
      exact ⟨h4, by rw [h5, h1, hl]⟩
    · obtain ⟨h4, h5⟩ := (h3 hc).run hc hos
      simp only [Preview.run]
      exact ⟨h4, by rw [h5, h1, hl]⟩

theorem reset_clients (c : Config) (st : State) (now : Int) (i : Bool) :
    (reset c st now i).clients = st.clients ∧ (reset c st now i).content = st.content := by
  unfold reset
  simp only
  split
  · rw [updateLabel_same]; simp
  · split
    · rw [updateLabel_same]; simp
    · simp

theorem reset_true_normal {c : Config} (hc : c.callback = true) (st : State) (now : Int) :
    Normal (reset c st now true) := by
  have key : ∀ s : State, s.override = none → Normal { updateLabel c s with period := none } := by
    intro s hs
    have ho : hasOverride s = false := by unfold hasOverride; rw [hs]
    refine ⟨?_, ?_⟩
    · unfold hasOverride; rw [updateLabel_same]; simp only [hs]
    · show (updateLabel c s).text = (updateLabel c s).content
      rw [updateLabel_none hc ho, updateLabel_same]
  unfold reset
  simp only [if_true]
  cases st.period with
  | none => exact key _ rfl
  | some p => exact key _ rfl

theorem cancelOthers_spec (c : Config) (k : Option Nat) (now : Int) (st : State) (ks : List Nat) :
    (cancelOthers c k now st ks).2 = ks.filter (fun j => some j ≠ k) ∧
    (cancelOthers c k now st ks).1.clients = st.clients ∧ (cancelOthers c k now st ks).1.content = st.content := by
  induction ks generalizing st with
  | nil => exact ⟨rfl, rfl, rfl⟩
  | cons j ks ih =>
    unfold cancelOthers
    by_cases hj : some j = k
    · rw [if_pos hj]
      simp [hj, ih]
    · rw [if_neg hj]
      simp only
      obtain ⟨h1, h2, h3⟩ := ih (if c.resets j = true then reset c st now true else st)
      refine ⟨?_, ?_, ?_⟩
      · rw [h1]; simp [hj]
      · rw [h2]; split
        · exact (reset_clients _ _ _ _).1
        · rfl
      · rw [h3]; split
        · exact (reset_clients _ _ _ _).2
        · rfl

/-- What a preview does. -/
theorem preview_spec (c : Config) (st : State) (now : Int) (r : Request) :
    (preview c st now r).1.override = some r.text ∧ (preview c st now r).1.stay = r.stay ∧
    (preview c st now r).1.period = r.timeout.map (fun T => { interval := T, lastReset := now }) ∧
    (preview c st now r).1.content = st.content ∧
    (preview c st now r).2 = st.clients.filter (fun j => some j ≠ r.client) ∧
    (preview c st now r).1.clients = (match r.client with
      | none => st.clients
      | some k => if k ∈ st.clients then st.clients else st.clients ++ [k]) ∧
    (r.text ≠ "" → (preview c st now r).1.text = r.text) ∧
    (r.text = "" → c.callback = true → (preview c st now r).1.text = st.content) := by
  obtain ⟨h1, h2, h3⟩ := cancelOthers_spec c r.client now st st.clients
  unfold preview
  simp only
  generalize cancelOthers c r.client now st st.clients = x at h1 h2 h3
  obtain ⟨s, ks⟩ := x
  simp only at h1 h2 h3 ⊢
  have hs := updateLabel_same c { s with stay := r.stay, override := some r.text }
  refine ⟨?_, ?_, ?_, ?_, h1, ?_, ?_, ?_⟩
  · rw [hs]
  · rw [hs]
  · unfold newPeriod
    cases r.timeout with
    | none => rfl
    | some T =>
      simp only [Option.map_some]
      split <;> rfl
  · rw [hs]; exact h3
  · rw [hs]
    simp only [h2]
    cases r.client <;> rfl
  · intro ht
    exact updateLabel_some (st := { s with stay := r.stay, override := some r.text }) rfl ht
  · intro ht hc
    have := updateLabel_none (st := { s with stay := r.stay, override := some r.text }) hc (by simp [hasOverride, ht])
    simpa [h3] using this

end PySwitch.Preview
