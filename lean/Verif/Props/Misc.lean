import Verif.Spec.Misc
import Verif.Lemmas.Misc
/-
Properties C01, C02, C03, C60: helpers in `misc.py`.
-/
namespace PySwitch.Props
open PySwitch Spec

/-- C01: in every history of polls and resets, with any clock readings, a poll is answered positively
exactly if more than the interval has passed since the last reset or positive poll before it. -/
theorem C01_poll_iff (interval : Int) (es : List PeriodEvent)
    (pre post : List (PeriodEvent × Bool)) (t : Int) (b : Bool)
    (h : (PeriodCounter.mk interval 0).trace es = pre ++ (.poll t, b) :: post) :
    b = true ↔ t - lastMark pre > interval := by
  rw [lastMark_eq]
  exact trace_poll _ es pre post t b h

/-- C01: two positive polls are always strictly more than the interval apart. -/
theorem C01_spacing (interval : Int) (es : List PeriodEvent) (hc : Chronological es)
    (pre mid post : List (PeriodEvent × Bool)) (t₁ t₂ : Int)
    (h : (PeriodCounter.mk interval 0).trace es
      = pre ++ (.poll t₁, true) :: mid ++ (.poll t₂, true) :: post) :
    t₂ - t₁ > interval := by
  have h1 := (C01_poll_iff interval es _ _ t₂ true h).1 rfl
  rw [lastMark_eq, markFrom_append] at h1
  simp only [markFrom, isMark, if_true, eventTime] at h1
  have hfst := trace_map_fst (PeriodCounter.mk interval 0) es
  rw [h] at hfst
  unfold Chronological at hc
  rw [← hfst] at hc
  simp only [List.map_append, List.map_cons, List.append_assoc, List.cons_append] at hc
  rw [List.pairwise_append] at hc
  have hc2 := hc.2.1
  rw [List.pairwise_cons] at hc2
  obtain ⟨ha, hb⟩ := hc2
  rw [List.pairwise_append] at hb
  have := le_markFrom t₁ mid (fun e he => ha e.1 (by
    simp only [List.mem_append]; exact .inl (List.mem_map_of_mem he))) hb.1
  omega

/-- C01: a poll more than the interval after all earlier events always fires. -/
theorem C01_fires (interval : Int) (es : List PeriodEvent) (T : Int)
    (pre post : List (PeriodEvent × Bool)) (t : Int) (b : Bool)
    (h : (PeriodCounter.mk interval 0).trace es = pre ++ (.poll t, b) :: post)
    (h0 : 0 ≤ T) (hpre : ∀ e ∈ pre, eventTime e.1 ≤ T) (ht : t > T + interval) :
    b = true := by
  rw [C01_poll_iff interval es pre post t b h, lastMark_eq]
  have : ∀ (m : Int) (tr : List (PeriodEvent × Bool)), m ≤ T →
      (∀ e ∈ tr, eventTime e.1 ≤ T) → markFrom m tr ≤ T := by
    intro m tr
    induction tr generalizing m with
    | nil => intro h _; exact h
    | cons x xs ih =>
      intro hm hx
      simp only [markFrom]
      split
      · exact ih _ (hx x (by simp)) (fun e he => hx e (by simp [he]))
      · exact ih _ hm (fun e he => hx e (by simp [he]))
  have := this 0 pre h0 hpre
  omega

-- a concrete history with positive and negative polls and a reset meets the hypotheses
example : (PeriodCounter.mk 200 0).trace [.poll 100, .poll 201, .reset 300, .poll 500, .poll 501]
    = [(.poll 100, false)] ++ (.poll 201, true) :: [(.reset 300, false), (.poll 500, false)]
      ++ (.poll 501, true) :: [] := by decide
example : Chronological [.poll 100, .poll 201, .reset 300, .poll 500, .poll 501] := by
  simp [Chronological, eventTime]

/-- C02: after any history of registrations, one update calls exactly the registered updateables, each
once, in the order of their first registration. -/
theorem C02_update_once_in_order (isUpd : Nat → Bool) (hist : List Nat) :
    FirstOccurrences isUpd hist (hist.foldl (Updater.addUpdateable isUpd) {}).update := by
  rw [update_eq]
  induction hist using snocInduction with
  | nil => exact ⟨by simp, by simp, by simp⟩
  | snoc xs x ih =>
    rw [List.foldl_append]
    have := firstOcc_step isUpd xs _ x ih
    simp only [List.foldl_cons, List.foldl_nil, Updater.addUpdateable]
    split
    · rename_i h; rw [if_pos h] at this; exact this
    · split
      · rename_i h h2; rw [if_neg h, if_pos h2] at this; exact this
      · rename_i h h2; rw [if_neg h, if_neg h2] at this; exact this

example : (([5, 3, 5, 8, 3].foldl (Updater.addUpdateable (· ≠ 8)) {}).update) = [5, 3] := by decide

/-- C03: every distinct listener is registered exactly once, in order of first registration. -/
theorem C03_listeners_once (hist : List Nat) :
    FirstOccurrences (fun _ => true) hist (addListeners {} hist).1.listeners := by
  induction hist using snocInduction with
  | nil => exact ⟨by simp [addListeners], by simp [addListeners], by simp [addListeners]⟩
  | snoc xs x ih =>
    have := firstOcc_step (fun _ => true) xs _ x ih
    rw [addListeners_append]
    simp only [addListeners, EventEmitter.addListener]
    split
    · rename_i h; rw [if_neg (by simp), if_pos h] at this; exact this
    · rename_i h; rw [if_neg (by simp), if_neg h] at this; exact this

/-- C03: `add_listener` answers `True` exactly if that listener was never added before. -/
theorem C03_answer (hist : List Nat) (l : Nat) :
    ((addListeners {} hist).1.addListener l).2 = true ↔ l ∉ hist := by
  have h := (C03_listeners_once hist).complete l
  simp only [and_true] at h
  rw [← h, EventEmitter.addListener]
  split <;> simp_all

example : addListeners {} [4, 2, 4, 9] = ({ listeners := [4, 2, 9] }, [true, true, false, true]) := by
  decide

/-- C60: padding keeps the text as prefix, appends only fill characters, and the length is the maximum
of text length and requested length. -/
theorem C60_fill_up_to (s : List Char) (n : Int) (c : Char) :
    ∃ k : Nat, fillUpTo s n c = s ++ List.replicate k c ∧
      ((fillUpTo s n c).length : Int) = max (s.length : Int) n := by
  unfold fillUpTo
  split
  · exact ⟨0, by simp, by omega⟩
  · rw [fillLoop_spec]
    exact ⟨_, rfl, by simp; omega⟩

example : fillUpTo ['a', 'b'] 5 '.' = ['a', 'b', '.', '.', '.'] := by
  simp [fillUpTo, fillLoop_spec, List.replicate]

end PySwitch.Props
