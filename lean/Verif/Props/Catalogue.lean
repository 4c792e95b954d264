import Verif.Model.Catalogue

/-!
C176: the catalogues of the configuration editor.
-/

namespace PySwitch.Props
open PySwitch.Catalogue

namespace C176

theorem run_append (n : Nat) : ∀ (a b : List Ev) (s : State),
    s.run n (a ++ b) = (((s.run n a).1.run n b).1, (s.run n a).2 ++ ((s.run n a).1.run n b).2)
  | [], b, s => rfl
  | e :: a, b, s => by
    rw [List.cons_append, State.run, State.run]
    simp only [run_append n a b, List.append_assoc]

/-- Without failures: who is busy, and what is kept. -/
structure Inv (n : Nat) (s : State) (called : List Nat) (answered : List Nat) : Prop where
  idle : ∀ k, s.phase k = .idle ↔ k ∉ called
  mixing : ∀ k, s.phase k = .mixing → s.mixed k < n
  fresh : ∀ k, s.phase k = .idle ∨ s.phase k = .fetching → s.mixed k = 0
  buffer : ∀ o, s.buffer = some o → s.phase o = .mixing ∨ (s.phase o = .done ∧ s.mixed o = n)
  answered : ∀ k, s.phase k = .done → k ∈ answered
  known : (∃ k, s.phase k = .mixing ∨ s.phase k = .done) → s.buffer ≠ none

/-- Who calls. -/
def caller : Ev → List Nat
  | .call k => [k]
  | _ => []

theorem step_inv {n : Nat} {s : State} {called answered : List Nat} (h : Inv n s called answered) (e : Ev) (hf : ∀ k, e ≠ .fail k) :
    Inv n (s.step n e).1 (called ++ caller e) (answered ++ (s.step n e).2.map (·.1)) := by
  obtain ⟨h1, h2, h3, h4, h5, h6⟩ := h
  cases e with
  | fail k => exact absurd rfl (hf k)
  | call k =>
    simp only [State.step]
    by_cases hk : s.phase k = .idle
    · rw [if_pos hk]
      cases hb : s.buffer with
      | some o =>
        have hok : o ≠ k := by
          intro e
          rcases h4 o hb with h | ⟨h, _⟩ <;> (rw [e, hk] at h; cases h)
        refine ⟨?_, ?_, ?_, ?_, ?_, ?_⟩
        · intro j
          simp only [State.set, caller, List.mem_append, List.mem_singleton]
          by_cases hj : j = k
          · simp [hj]
          · simp [hj, h1 j]
        · intro j
          simp only [State.set]
          split
          · intro h; cases h
          · exact h2 j
        · intro j
          simp only [State.set]
          split
          · rintro (h | h) <;> cases h
          · exact h3 j
        · intro o' ho'
          simp only [State.set] at ho' ⊢
          have : o' = o := by rw [hb] at ho'; cases ho'; rfl
          subst this
          simp only [hok, if_false]
          exact h4 o' hb
        · intro j
          simp only [State.set]
          split
          · rename_i e; rw [e]; intro _; simp
          · intro h; exact List.mem_append_left _ (h5 j h)
        · intro _
          simp only [State.set, hb]
          exact nofun
      | none =>
        refine ⟨?_, ?_, ?_, ?_, ?_, ?_⟩
        · intro j
          simp only [State.set, caller, List.mem_append, List.mem_singleton]
          by_cases hj : j = k
          · simp [hj]
          · simp [hj, h1 j]
        · intro j
          simp only [State.set]
          split
          · intro h; cases h
          · exact h2 j
        · intro j
          simp only [State.set]
          split
          · rename_i e; rw [e]; intro _; exact h3 k (.inl hk)
          · exact h3 j
        · intro o ho
          simp only [State.set] at ho
          rw [hb] at ho; cases ho
        · intro j
          simp only [State.set]
          split
          · intro h; cases h
          · intro h; exact List.mem_append_left _ (h5 j h)
        · rintro ⟨j, hj⟩
          exfalso
          simp only [State.set] at hj
          split at hj
          · rcases hj with hj | hj <;> cases hj
          · exact h6 ⟨j, hj⟩ hb
    · rw [if_neg hk]
      refine ⟨?_, h2, h3, h4, fun k hk => List.mem_append_left _ (h5 k hk), h6⟩
      intro j
      rw [h1 j, List.mem_append, caller, List.mem_singleton]
      have hkc : k ∈ called := Classical.byContradiction fun hh => hk ((h1 k).mpr hh)
      constructor
      · rintro h (hh | rfl)
        · exact h hh
        · exact h hkc
      · exact fun h hh => h (.inl hh)
  | fetched k =>
    simp only [State.step]
    by_cases hk : s.phase k = .fetching
    · rw [if_pos hk]
      have hm : s.mixed k = 0 := h3 k (.inr hk)
      unfold State.next
      by_cases hn : s.mixed k = n
      · have hn' : ({ s.set k .mixing with buffer := some k } : State).mixed k = n := hn
        rw [if_pos hn']
        refine ⟨?_, ?_, ?_, ?_, ?_, ?_⟩
        · intro j
          simp only [State.set, caller, List.append_nil]
          split
          · rename_i e; rw [e, ← h1 k, hk]; constructor <;> intro h <;> cases h
          · exact h1 j
        · intro j
          simp only [State.set]
          split
          · intro h; cases h
          · exact h2 j
        · intro j
          simp only [State.set]
          split
          · rintro (h | h) <;> cases h
          · exact h3 j
        · intro o ho
          simp only [State.set] at ho ⊢
          cases ho
          right
          exact ⟨by simp, hn⟩
        · intro j
          simp only [State.set]
          split
          · rename_i e; rw [e]; intro _; simp
          · intro h; exact List.mem_append_left _ (h5 j h)
        · intro _
          simp only [State.set]
          exact nofun
      · have hn' : ({ s.set k .mixing with buffer := some k } : State).mixed k ≠ n := hn
        rw [if_neg hn']
        refine ⟨?_, ?_, ?_, ?_, ?_, ?_⟩
        · intro j
          simp only [State.set, caller, List.append_nil]
          split
          · rename_i e; rw [e, ← h1 k, hk]; constructor <;> intro h <;> cases h
          · exact h1 j
        · intro j
          simp only [State.set]
          split
          · rename_i e; rw [e]; intro _; omega
          · exact h2 j
        · intro j
          simp only [State.set]
          split
          · rintro (h | h) <;> cases h
          · exact h3 j
        · intro o ho
          simp only [State.set] at ho ⊢
          cases ho
          left
          simp
        · intro j
          simp only [State.set]
          split
          · intro h; cases h
          · intro h; exact List.mem_append_left _ (h5 j h)
        · intro _
          simp only [State.set]
          exact nofun
    · rw [if_neg hk]
      exact ⟨by simpa [caller] using h1, h2, h3, h4, fun k hk => List.mem_append_left _ (h5 k hk), h6⟩
  | mix k =>
    simp only [State.step]
    by_cases hk : s.phase k = .mixing
    · rw [if_pos hk]
      have hm := h2 k hk
      unfold State.next
      by_cases hn : s.mixed k + 1 = n
      · rw [if_pos (by simpa using hn)]
        refine ⟨?_, ?_, ?_, ?_, ?_, ?_⟩
        · intro j
          simp only [State.set, caller, List.append_nil]
          split
          · rename_i e; rw [e, ← h1 k, hk]; constructor <;> intro h <;> cases h
          · exact h1 j
        · intro j
          simp only [State.set]
          split
          · intro h; cases h
          · intro h; exact h2 j h
        · intro j
          simp only [State.set]
          split
          · rintro (h | h) <;> cases h
          · exact h3 j
        · intro o ho
          simp only [State.set] at ho ⊢
          split
          · right; exact ⟨rfl, hn⟩
          · exact h4 o ho
        · intro j
          simp only [State.set]
          split
          · rename_i e; rw [e]; intro _; simp
          · intro h; exact List.mem_append_left _ (h5 j h)
        · intro _
          exact h6 ⟨k, .inl hk⟩
      · rw [if_neg (by simpa using hn)]
        refine ⟨by simpa [caller] using h1, ?_, ?_, ?_, fun k hk => List.mem_append_left _ (h5 k hk), h6⟩
        · intro j hj
          simp only
          split
          · omega
          · exact h2 j hj
        · intro j hj
          simp only
          split
          · rename_i e
            rw [e] at hj
            simp only at hj
            rw [hk] at hj
            rcases hj with hj | hj <;> cases hj
          · exact h3 j hj
        · intro o ho
          rcases h4 o ho with h | ⟨ha, hb⟩
          · exact .inl h
          · right
            refine ⟨ha, ?_⟩
            simp only
            split
            · rename_i e
              rw [e, hk] at ha; cases ha
            · exact hb
    · rw [if_neg hk]
      exact ⟨by simpa [caller] using h1, h2, h3, h4, fun k hk => List.mem_append_left _ (h5 k hk), h6⟩

/-- The callers of a history. -/
def callers : List Ev → List Nat
  | [] => []
  | .call k :: es => k :: callers es
  | _ :: es => callers es

theorem run_inv {n : Nat} : ∀ (es : List Ev) {s : State} {called answered : List Nat}, Inv n s called answered → (∀ k, Ev.fail k ∉ es) →
    Inv n (s.run n es).1 (called ++ callers es) (answered ++ (s.run n es).2.map (·.1))
  | [], s, called, answered, h, _ => by simpa [callers, State.run] using h
  | e :: es, s, called, answered, h, hf => by
    have hs := step_inv h e fun k hk => hf k (by rw [hk]; exact List.mem_cons_self ..)
    have := run_inv es hs fun k hk => hf k (List.mem_cons_of_mem _ hk)
    rw [State.run]
    simp only [List.map_append, ← List.append_assoc]
    have e1 : called ++ callers (e :: es) = called ++ caller e ++ callers es := by
      cases e <;> simp [callers, caller]
    rw [e1]
    exact this

theorem start_inv (n : Nat) : Inv n {} [] [] :=
  ⟨fun _ => by simp, fun _ h => by simp at h, fun _ _ => rfl, fun _ h => by simp at h, fun _ h => by simp at h, fun ⟨_, h⟩ => by simp at h⟩

theorem mem_callers {k : Nat} : ∀ {es : List Ev}, k ∈ callers es ↔ .call k ∈ es
  | [] => by simp [callers]
  | e :: es => by
    cases e <;> simp [callers, mem_callers]

/-- The callers with results have their result in the phase. -/
theorem answered_done {n : Nat} : ∀ (es : List Ev) (s : State) (k : Nat) (r : Result),
    ((k, r) ∈ (s.run n es).2 → (s.run n es).1.phase k = .done) ∧ (s.phase k = .done → (s.run n es).1.phase k = .done)
  | [], s, k, r => ⟨fun h => by simp [State.run] at h, fun h => h⟩
  | e :: es, s, k, r => by
    have ih := answered_done (n := n) es (s.step n e).1 k r
    rw [State.run]
    simp only
    have hnext : ∀ (t : State) (j : Nat), ((k, r) ∈ (t.next n j).2 → (t.next n j).1.phase k = .done) ∧ (t.phase k = .done → (t.next n j).1.phase k = .done) := by
      intro t j
      unfold State.next
      split
      · simp only [State.set, List.mem_singleton, Prod.mk.injEq]
        refine ⟨fun h => by simp [h.1], fun h => ?_⟩
        split
        · rfl
        · exact h
      · exact ⟨fun h => by simp at h, fun h => h⟩
    have hstep : ((k, r) ∈ (s.step n e).2 → (s.step n e).1.phase k = .done) ∧ (s.phase k = .done → (s.step n e).1.phase k = .done) := by
      cases e with
      | call j =>
        simp only [State.step]
        split
        · rename_i hj
          split
          · simp only [State.set, List.mem_singleton, Prod.mk.injEq]
            refine ⟨fun h => by simp [h.1], fun h => ?_⟩
            split
            · rfl
            · exact h
          · simp only [State.set]
            refine ⟨fun h => by simp at h, fun h => ?_⟩
            split
            · rename_i e; rw [e, hj] at h; cases h
            · exact h
        · exact ⟨fun h => by simp at h, fun h => h⟩
      | fetched j =>
        simp only [State.step]
        split
        · rename_i hj
          refine ⟨(hnext _ _).1, fun h => (hnext _ _).2 ?_⟩
          simp only [State.set]
          split
          · rename_i e; rw [e, hj] at h; cases h
          · exact h
        · exact ⟨fun h => by simp at h, fun h => h⟩
      | mix j =>
        simp only [State.step]
        split
        · exact ⟨(hnext _ _).1, fun h => (hnext _ _).2 h⟩
        · exact ⟨fun h => by simp at h, fun h => h⟩
      | fail j =>
        simp only [State.step]
        split
        · simp only [State.set, List.mem_singleton, Prod.mk.injEq]
          refine ⟨fun h => by simp [h.1], fun h => ?_⟩
          split
          · rfl
          · exact h
        · exact ⟨fun h => by simp at h, fun h => h⟩
    refine ⟨fun h => ?_, fun h => ih.2 (hstep.2 h)⟩
    rcases List.mem_append.mp h with h | h
    · exact ih.2 (hstep.1 h)
    · exact ih.1 h

end C176

/-- **C176**, later callers: after any history without failing requests in which somebody has called the function and everybody has got a result, a new
caller gets the complete catalogue at once. Missing: callers while another one is loading, and failing requests, see the witnesses. -/
theorem C176_later_partial (n : Nat) (es : List Ev) (hf : ∀ k, Ev.fail k ∉ es) (k j : Nat) (hj : .call j ∈ es)
    (ha : ∀ i, .call i ∈ es → ∃ r, (i, r) ∈ (({} : State).run n es).2) (hk : .call k ∉ es) :
    ((({} : State).run n es).1.step n (.call k)).2 = [(k, .catalogue true)] := by
  have hinv := C176.run_inv es (C176.start_inv n) hf
  rw [List.nil_append] at hinv
  have hdone : ∀ i, .call i ∈ es → (({} : State).run n es).1.phase i = .done := by
    intro i hi
    obtain ⟨r, hr⟩ := ha i hi
    exact (C176.answered_done es {} i r).1 hr
  have hb := hinv.known ⟨j, .inr (hdone j hj)⟩
  have hidle : (({} : State).run n es).1.phase k = .idle := (hinv.idle k).mpr fun h => hk (C176.mem_callers.mp h)
  rw [State.step, if_pos hidle]
  cases ho : (({} : State).run n es).1.buffer with
  | none => exact absurd ho hb
  | some o =>
    simp only [State.result, ho]
    rcases hinv.buffer o ho with h | ⟨-, h⟩
    · exfalso
      have hoc : .call o ∈ es := by
        apply C176.mem_callers.mp
        apply Classical.byContradiction
        intro hh
        rw [(hinv.idle o).mpr hh] at h
        cases h
      rw [hdone o hoc] at h
      cases h
    · simp [h]

/-- **C176**, the first caller: if nobody else calls before it is ready, it gets the complete catalogue. -/
theorem C176_first_partial (n k : Nat) :
    (({} : State).run n (.call k :: .fetched k :: List.replicate n (.mix k))).2 = [(k, .catalogue true)] := by
  have key : ∀ (m d : Nat) (s : State), s.phase k = .mixing → s.buffer = some k → s.mixed k = d → d + m + 1 = n →
      (s.run n (List.replicate (m + 1) (.mix k))).2 = [(k, .catalogue true)] := by
    intro m
    induction m with
    | zero =>
      intro d s hp hb hm hd
      simp only [Nat.zero_add, List.replicate_one, State.run, State.step, if_pos hp, State.next, List.append_nil]
      rw [if_pos (by simp; omega)]
      simp [State.result, hb, hm, ← hd]
    | succ m ih =>
      intro d s hp hb hm hd
      rw [List.replicate_succ, State.run]
      simp only [State.step, if_pos hp, State.next]
      rw [if_neg (by simp; omega)]
      simp only [List.nil_append]
      exact ih (d + 1) _ hp hb (by simp [hm]) (by omega)
  cases n with
  | zero => simp [State.run, State.step, State.next, State.set, State.result]
  | succ n =>
    simp only [State.run, State.step, State.set, State.next, if_true]
    simp only [(Nat.succ_ne_zero n).symm, if_false, List.nil_append]
    exact key n 0 _ (by simp) rfl rfl (by omega)

/-- The hypotheses are met, also by callers at the same time. -/
example : (({} : State).run 2 [.call 0, .call 1, .fetched 1, .mix 1, .fetched 0, .mix 1, .mix 0, .mix 0]).2 = [(1, .catalogue false), (0, .catalogue true)] ∧
    (({} : State).run 2 [.call 0, .call 1, .fetched 1, .mix 1, .fetched 0, .mix 1, .mix 0, .mix 0, .call 2]).2 =
      [(1, .catalogue false), (0, .catalogue true), (2, .catalogue true)] := by decide

/-- **C176** does not hold for callers at the same time: one who calls while the first one is putting in the meta information gets a catalogue without it,
and so does the first of two who wait for the definitions. -/
theorem C176_overlap_witness :
    (({} : State).run 2 [.call 0, .fetched 0, .call 1]).2 = [(1, .catalogue false)] ∧
    (({} : State).run 2 [.call 0, .call 1, .fetched 0, .mix 0, .fetched 1, .mix 0]).2 = [(0, .catalogue false)] := by decide

/-- **C176** does not hold after a failing request: if the meta information could not be loaded, all later callers get the incomplete catalogue. -/
theorem C176_failed_witness (n k : Nat) (hk : k ≠ 0) (hn : n ≠ 0) :
    (({} : State).run n [.call 0, .fetched 0, .fail 0, .call k]).2 = [(0, .error), (k, .catalogue false)] := by
  simp [State.run, State.step, State.next, State.set, State.result, hk, hn.symm]

end PySwitch.Props
