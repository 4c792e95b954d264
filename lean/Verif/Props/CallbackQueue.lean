import Verif.Model.CallbackQueue

/-!
Routes of the configuration editor are executed one after the other, in the order of the calls.
-/

namespace PySwitch.Props
open PySwitch.CallbackQueue

namespace C118

/-- The calls of a history. -/
def calls : List Ev → List Nat
  | [] => []
  | .call c :: es => c :: calls es
  | _ :: es => calls es

/-- No callback throws. -/
def NoFailure (es : List Ev) : Prop := ∀ i, Ev.fail i ∉ es

structure Inv (s : State) : Prop where
  one : s.active.length ≤ 1
  running : s.running = false → s.active = [] ∧ s.queue = []

theorem inv_step {s : State} (h : Inv s) (e : Ev) : Inv (step s e) := by
  obtain ⟨queue, running, active, started⟩ := s
  obtain ⟨h1, h2⟩ := h
  simp only at h1 h2
  cases e with
  | call c =>
    cases running with
    | true => exact ⟨by simpa [step, trigger] using h1, by simp [step, trigger]⟩
    | false =>
      obtain ⟨rfl, rfl⟩ := h2 rfl
      exact ⟨by simp [step, trigger], by simp [step, trigger]⟩
  | finish i =>
    simp only [step]
    split
    · rename_i hi
      have : active.eraseIdx i = [] := by
        match active, h1, hi with
        | [a], _, hi => have : i = 0 := by simpa using hi
                        subst this; rfl
      cases queue with
      | nil => exact ⟨by simp [trigger, this], by simp [trigger, this]⟩
      | cons q qs => exact ⟨by simp [trigger, this], by simp [trigger]⟩
    · exact ⟨h1, h2⟩
  | fail i =>
    refine ⟨Nat.le_trans (List.length_eraseIdx_le ..) h1, fun hr => ?_⟩
    obtain ⟨h, h'⟩ := h2 hr
    exact ⟨by simp [step, h], h'⟩

theorem inv_run : ∀ (es : List Ev) {s : State}, Inv s → Inv (run s es)
  | [], _, h => h
  | e :: es, _, h => inv_run es (inv_step h e)

theorem trigger_order (s : State) : (trigger s).started ++ (trigger s).queue = s.started ++ s.queue := by
  obtain ⟨queue, running, active, started⟩ := s
  cases running <;> cases queue <;> simp [trigger]

theorem run_order : ∀ (es : List Ev) (s : State),
    (run s es).started ++ (run s es).queue = s.started ++ s.queue ++ calls es
  | [], s => by simp [run, calls]
  | e :: es, s => by
    rw [run, run_order es]
    cases e with
    | call c => simp [step, trigger_order, calls]
    | finish i => simp only [step, calls]; split <;> simp [trigger_order]
    | fail i => simp [step, calls]

theorem trigger_busy (s : State) (h : s.running = true → s.active ≠ []) :
    (trigger s).running = true → (trigger s).active ≠ [] := by
  obtain ⟨queue, running, active, started⟩ := s
  cases running <;> cases queue <;> simp_all [trigger]

theorem run_busy : ∀ (es : List Ev) (s : State), NoFailure es → (s.running = true → s.active ≠ []) →
    (run s es).running = true → (run s es).active ≠ []
  | [], s, _, h => h
  | e :: es, s, hn, h => by
    refine run_busy es _ (fun i hi => hn i (List.mem_cons_of_mem _ hi)) ?_
    cases e with
    | call c => exact trigger_busy _ h
    | finish i =>
      simp only [step]
      split
      · exact trigger_busy _ (by simp)
      · exact h
    | fail i => exact absurd (by simp) (hn i)

end C118

/-- **C118** Two callbacks are never in progress at the same time, whatever happens. -/
theorem C118_alone (es : List Ev) : (run {} es).active.length ≤ 1 :=
  (C118.inv_run es (s := {}) ⟨by simp, by simp⟩).one

/-- **C118** Callbacks are started in the order of the calls, and each of them at most once. -/
theorem C118_order (es : List Ev) : (run {} es).started <+: C118.calls es := by
  have := C118.run_order es {}
  exact ⟨(run {} es).queue, by simpa using this⟩

/-- **C118** If no callback throws, everything which was called has been started as soon as no callback is
in progress. -/
theorem C118_all_partial (es : List Ev) (hn : C118.NoFailure es) (ha : (run {} es).active = []) :
    (run {} es).started = C118.calls es := by
  have hr : (run {} es).running = false := by
    cases h : (run {} es).running with
    | false => rfl
    | true => exact absurd ha (C118.run_busy es {} hn (by simp) h)
  have hq := ((C118.inv_run es (s := {}) ⟨by simp, by simp⟩).running hr).2
  have := C118.run_order es {}
  simpa [hq] using this

example : C118.NoFailure [.call 1, .call 2, .finish 0, .call 3, .finish 0, .finish 0] ∧
    (run {} [.call 1, .call 2, .finish 0, .call 3, .finish 0, .finish 0]).active = [] ∧
    (run {} [.call 1, .call 2, .finish 0, .call 3]).active = [2] := by
  refine ⟨?_, by decide +kernel, by decide +kernel⟩
  intro i; simp

/-- What is missing: after a callback has thrown, nothing is started any more. (The routes catch their
exceptions, but their handler may throw itself.) -/
theorem C118_dead (es es' : List Ev) (i : Nat) (hi : i < (run {} es).active.length) :
    (run {} (es ++ .fail i :: es')).started = (run {} es).started := by
  have happ : ∀ (a b : List Ev) (s : State), run s (a ++ b) = run (run s a) b := by
    intro a
    induction a with
    | nil => intro b s; rfl
    | cons e a ih => intro b s; exact ih b _
  rw [happ]
  have hinv := C118.inv_run es (s := {}) ⟨by simp, by simp⟩
  generalize run {} es = s at hi hinv ⊢
  have hrun : s.running = true := by
    cases h : s.running with
    | true => rfl
    | false => rw [(hinv.running h).1] at hi; simp at hi
  have hact : s.active.eraseIdx i = [] := by
    have := hinv.one
    match hs : s.active, this, hi with
    | [a], _, hi => have : i = 0 := by simpa [hs] using hi
                    subst this; rfl
    | [], _, hi => simp at hi
  simp only [run, step]
  have : ∀ (es : List Ev) (t : State), t.running = true → t.active = [] → (run t es).started = t.started := by
    intro es
    induction es with
    | nil => intro t _ _; rfl
    | cons e es ih =>
      intro t h1 h2
      rw [run]
      cases e with
      | call c => rw [ih _ (by simp [step, trigger, h1]) (by simp [step, trigger, h1, h2])]; simp [step, trigger, h1]
      | finish j => simp only [step, h2, List.length_nil, Nat.not_lt_zero, if_false]; exact ih t h1 h2
      | fail j => rw [ih _ (by simp [step, h1]) (by simp [step, h2])]; rfl
  exact this es' _ hrun hact

example : 0 < (run {} [.call 1, .call 2]).active.length := by decide +kernel

end PySwitch.Props
