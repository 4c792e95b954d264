import Verif.Spec.Misc
import Verif.Lemmas.Basic
namespace PySwitch
open Spec

/-- Does a trace entry restart the period? -/
def isMark : PeriodEvent × Bool → Bool
  | (.reset _, _) => true
  | (.poll _, b) => b

/-- `lastMark` with an arbitrary start value. -/
def markFrom (m : Int) : List (PeriodEvent × Bool) → Int
  | [] => m
  | e :: es => markFrom (if isMark e then eventTime e.1 else m) es

theorem markFrom_append (m : Int) (a b) : markFrom m (a ++ b) = markFrom (markFrom m a) b := by
  induction a generalizing m with
  | nil => rfl
  | cons x xs ih => simp [markFrom, ih]

theorem lastMark_eq (tr) : lastMark tr = markFrom 0 tr := by
  induction tr using snocInduction with
  | nil => rfl
  | snoc xs x ih =>
    rw [markFrom_append]
    obtain ⟨e, b⟩ := x
    unfold lastMark at ih ⊢
    rw [← ih]
    cases e <;> cases b <;> simp [markFrom, isMark, eventTime]

theorem trace_poll (p : PeriodCounter) (es pre post) (t : Int) (b : Bool)
    (h : p.trace es = pre ++ (.poll t, b) :: post) :
    b = true ↔ t - markFrom p.lastReset pre > p.interval := by
  induction pre generalizing p es with
  | nil =>
    cases es with
    | nil => simp [PeriodCounter.trace] at h
    | cons e es =>
      simp only [PeriodCounter.trace, List.nil_append, List.cons.injEq, Prod.mk.injEq] at h
      obtain ⟨⟨rfl, rfl⟩, -⟩ := h
      simp only [PeriodCounter.step, PeriodCounter.exceeded, markFrom]
      split <;> simp <;> omega
  | cons x xs ih =>
    cases es with
    | nil => simp [PeriodCounter.trace] at h
    | cons e es =>
      simp only [PeriodCounter.trace, List.cons_append, List.cons.injEq] at h
      obtain ⟨rfl, h⟩ := h
      have := ih _ _ h
      rw [this]
      have hi : (p.step e).1.interval = p.interval := by
        cases e <;> simp [PeriodCounter.step, PeriodCounter.exceeded, PeriodCounter.reset]
        split <;> rfl
      rw [hi]
      simp only [markFrom]
      have hm : (p.step e).1.lastReset
          = if isMark (e, (p.step e).2) then eventTime e else p.lastReset := by
        cases e <;> simp [PeriodCounter.step, PeriodCounter.exceeded, PeriodCounter.reset, isMark,
          eventTime]
        split <;> simp
      rw [hm]

theorem trace_map_fst (p : PeriodCounter) (es) : (p.trace es).map Prod.fst = es := by
  induction es generalizing p with
  | nil => rfl
  | cons e es ih => simp [PeriodCounter.trace, ih]

/-- The mark never lies before an earlier mark in a chronological trace. -/
theorem le_markFrom (m : Int) (tr : List (PeriodEvent × Bool))
    (h : ∀ e ∈ tr, m ≤ eventTime e.1)
    (hp : (tr.map Prod.fst).Pairwise (fun a b => eventTime a ≤ eventTime b)) :
    m ≤ markFrom m tr := by
  induction tr generalizing m with
  | nil => exact Int.le_refl _
  | cons x xs ih =>
    simp only [markFrom]
    simp only [List.map_cons, List.pairwise_cons] at hp
    split
    · have h1 := h x (by simp)
      have h2 := ih (eventTime x.1) (fun e he => hp.1 e.1 (List.mem_map_of_mem he)) hp.2
      omega
    · exact ih m (fun e he => h e (by simp [he])) hp.2

theorem idxOf_append_of_mem {l : List Nat} {a : Nat} (h : a ∈ l) (r : List Nat) :
    (l ++ r).idxOf a = l.idxOf a := by
  rw [List.idxOf_append]; simp [h]

/-- Appending one registration to a history keeps the specification. -/
theorem firstOcc_step (keep : Nat → Bool) (hist out : List Nat) (u : Nat)
    (h : FirstOccurrences keep hist out) :
    FirstOccurrences keep (hist ++ [u])
      (if !keep u then out else if out.contains u then out else out ++ [u]) := by
  obtain ⟨hc, ho, hp⟩ := h
  have hp' : out.Pairwise (fun a b => (hist ++ [u]).idxOf a < (hist ++ [u]).idxOf b) := by
    refine hp.imp_of_mem ?_
    intro a b ha hb hab
    rw [idxOf_append_of_mem ((hc a).1 ha).1, idxOf_append_of_mem ((hc b).1 hb).1]; exact hab
  by_cases hk : keep u = true
  · by_cases hm : u ∈ out
    · simp [hk, hm]
      refine ⟨?_, ho, hp'⟩
      intro v
      rw [hc v]
      have := (hc u).1 hm
      constructor
      · rintro ⟨a, b⟩; exact ⟨by simp [a], b⟩
      · rintro ⟨a, b⟩
        simp at a
        rcases a with a | rfl
        · exact ⟨a, b⟩
        · exact this
    · simp [hk, hm]
      have hu : u ∉ hist := fun hh => hm ((hc u).2 ⟨hh, hk⟩)
      refine ⟨?_, ?_, ?_⟩
      · intro v
        simp [hc v]
        constructor
        · rintro (⟨a, b⟩ | rfl)
          · exact ⟨.inl a, b⟩
          · exact ⟨.inr rfl, hk⟩
        · rintro ⟨a | a, b⟩
          · exact .inl ⟨a, b⟩
          · exact .inr a
      · intro v hv
        simp at hv
        rw [List.count_append]
        rcases hv with hv | rfl
        · have : v ≠ u := fun e => hm (e ▸ hv)
          rw [ho v hv, List.count_eq_zero.2 (by simpa using this)]
        · rw [List.count_eq_zero.2 hm]; simp
      · rw [List.pairwise_append]
        refine ⟨hp', by simp, ?_⟩
        intro a ha b hb
        simp at hb; subst hb
        rw [idxOf_append_of_mem ((hc a).1 ha).1]
        have h1 := List.idxOf_lt_length_of_mem ((hc a).1 ha).1
        rw [List.idxOf_append]; simp [hu]; omega
  · have hk' : keep u = false := by simpa using hk
    simp [hk']
    refine ⟨?_, ho, hp'⟩
    intro v
    rw [hc v]
    constructor
    · rintro ⟨a, b⟩; exact ⟨by simp [a], b⟩
    · rintro ⟨a, b⟩
      simp at a
      rcases a with a | rfl
      · exact ⟨a, b⟩
      · exact absurd b hk

theorem update_eq (s : Updater) : s.update = s.updateables := by
  unfold Updater.update; rw [foldl_append_singleton]; simp

theorem addListeners_append (s : EventEmitter) (a b : List Nat) :
    addListeners s (a ++ b)
      = ((addListeners (addListeners s a).1 b).1,
         (addListeners s a).2 ++ (addListeners (addListeners s a).1 b).2) := by
  induction a generalizing s with
  | nil => simp [addListeners]
  | cons x xs ih => simp [addListeners, ih]

theorem fillLoop_spec (ret : List Char) (n : Nat) (c : Char) :
    fillLoop ret n c = ret ++ List.replicate (n - ret.length) c := by
  fun_induction fillLoop ret n c with
  | case1 ret h ih =>
    rw [ih]
    simp
    have : n - ret.length = (n - (ret.length + 1)) + 1 := by omega
    rw [this, List.replicate_succ]
  | case2 ret h =>
    have : n - ret.length = 0 := by omega
    simp [this]

end PySwitch
