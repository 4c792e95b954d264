import Verif.Lemmas.PropertiesNames

/-!
The numbers of a range can be chosen in the dialog.
-/

namespace PySwitch.Properties
open Spec

/-- The text of a number: digits, with or without a sign. -/
theorem intText_shape (n : Int) : ∃ d : Text, d ≠ [] ∧ (∀ c ∈ d, c.isDigit = true) ∧ (intText n = d ∨ intText n = '-' :: d) := by
  have hd : ∀ k : Nat, (intText (k : Int)) ≠ [] ∧ ∀ c ∈ intText (k : Int), c.isDigit = true := by
    intro k
    rw [intText_nat]
    exact ⟨Nat.toDigits_ne_nil, fun c hc => Nat.isDigit_of_mem_toDigits (by decide) (by decide) hc⟩
  cases n with
  | ofNat k => exact ⟨_, (hd k).1, (hd k).2, .inl rfl⟩
  | negSucc k =>
    refine ⟨_, (hd (k + 1)).1, (hd (k + 1)).2, .inr ?_⟩
    have h1 : toString (Int.negSucc k) = "-" ++ toString (k + 1) := rfl
    have h2 : toString ((k + 1 : Nat) : Int) = toString (k + 1) := rfl
    unfold intText
    rw [h1, h2, String.toList_append]
    rfl

theorem digit_ne {c : Char} (h : c.isDigit = true) : c ≠ 'e' ∧ c ≠ 'E' ∧ c ≠ '.' ∧ c ≠ '-' ∧ c ≠ '"' := by
  refine ⟨?_, ?_, ?_, ?_, ?_⟩ <;> (intro e; subst e; revert h; decide)

theorem takeWhile_all {β : Type} (p : β → Bool) (l : List β) (h : ∀ c ∈ l, p c = true) : l.takeWhile p = l ∧ l.dropWhile p = [] := by
  induction l with
  | nil => exact ⟨rfl, rfl⟩
  | cons a l ih =>
    have := ih fun c hc => h c (List.mem_cons_of_mem _ hc)
    rw [List.takeWhile_cons, List.dropWhile_cons, if_pos (h a List.mem_cons_self), if_pos (h a List.mem_cons_self), this.1]
    exact ⟨rfl, this.2⟩

theorem isNumber_digits (t d : Text) (hn : d ≠ []) (hd : ∀ c ∈ d, c.isDigit = true) (ht : unsigned t = d) : isNumber t = true := by
  have h1 := takeWhile_all (fun c => c != 'e' && c != 'E') d fun c hc => by
    have := digit_ne (hd c hc)
    simp [this.1, this.2.1]
  have h2 := takeWhile_all (fun c => c != '.') d fun c hc => by
    have := digit_ne (hd c hc)
    simp [this.2.2.1]
  unfold isNumber
  simp only [ht, h1.1, h1.2, h2.1, h2.2]
  simp only [isDigits, Bool.and_true, Bool.and_eq_true, List.all_eq_true]
  exact ⟨by simpa using hn, hd⟩

theorem isNumber_intText (n : Int) : isNumber (intText n) = true := by
  obtain ⟨d, h1, h2, h3⟩ := intText_shape n
  refine isNumber_digits _ d h1 h2 ?_
  rcases h3 with h3 | h3
  · rw [h3]
    unfold unsigned
    split
    · exact absurd rfl (digit_ne (h2 '-' List.mem_cons_self)).2.2.2.1
    · rfl
  · rw [h3]
    rfl

theorem intText_quotes (n : Int) : intText n ≠ [] ∧ optionValue (intText n) = intText n ∧ single (intText n) = intText n := by
  obtain ⟨d, h1, h2, h3⟩ := intText_shape n
  have hq : ∀ c ∈ intText n, c ≠ '"' := by
    intro c hc
    rcases h3 with h3 | h3
    · rw [h3] at hc
      exact (digit_ne (h2 c hc)).2.2.2.2
    · rw [h3] at hc
      rcases List.mem_cons.1 hc with e | hc
      · subst e; decide
      · exact (digit_ne (h2 c hc)).2.2.2.2
  refine ⟨?_, ?_, ?_⟩
  · rcases h3 with h3 | h3 <;> rw [h3]
    · exact h1
    · simp
  · exact (takeWhile_all _ _ fun c hc => by simpa using hq c hc).1
  · unfold single
    conv => rhs; rw [← List.map_id (intText n)]
    exact List.map_congr_left fun c hc => if_neg (hq c hc)

theorem mem_range {r : Range} {l : List Text} (h : rangeValues r = some l) (v : Int) (h1 : r.min ≤ v) (h2 : v ≤ r.max) : intText v ∈ l := by
  unfold rangeValues at h
  split at h
  · simp at h
  · simp only [Option.some.injEq] at h
    subst h
    refine List.mem_append_right _ (List.mem_map.2 ⟨(v - r.min).toNat, List.mem_range.2 (by omega), ?_⟩)
    congr 1
    omega

theorem of_mem_range {r : Range} {l : List Text} (h : rangeValues r = some l) (t : Text) (ht : t ∈ l) :
    t ∈ r.additional.getD [] ∨ ∃ v, r.min ≤ v ∧ v ≤ r.max ∧ t = intText v := by
  unfold rangeValues at h
  split at h
  · simp at h
  · simp only [Option.some.injEq] at h
    subst h
    refine (List.mem_append.1 ht).imp (fun a => a) fun b => ?_
    obtain ⟨i, hi, rfl⟩ := List.mem_map.1 b
    have := List.mem_range.1 hi
    exact ⟨r.min + i, by omega, by omega, rfl⟩

end PySwitch.Properties
