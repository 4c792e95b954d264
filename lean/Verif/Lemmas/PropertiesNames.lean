import Verif.Lemmas.PropertiesEdit

/-!
The names which the dialog suggests: the next page, the next pager.
-/

namespace PySwitch.Properties
open Spec

theorem intText_nat (n : Nat) : intText (n : Int) = Nat.toDigits 10 n := by
  show (Nat.repr n).toList = _
  exact Nat.toList_repr

theorem digits_map (l : Text) (h : ∀ c ∈ l, c.isDigit = true) : digits 10 l = l.map fun c => c.toNat - '0'.toNat := by
  induction l with
  | nil => rfl
  | cons c l ih =>
    have hc := h c (by simp)
    simp only [Char.isDigit, Bool.and_eq_true, decide_eq_true_eq] at hc
    have h1 : ('0' ≤ c ∧ c ≤ '9') := hc
    have h2 : c.toNat - '0'.toNat < 10 := by
      have : c.toNat ≤ '9'.toNat := h1.2
      have e9 : '9'.toNat = 57 := rfl
      have e0 : '0'.toNat = 48 := rfl
      omega
    have : digitOf 10 c = some (c.toNat - '0'.toNat) := by
      simp only [digitOf, if_pos h1, Option.bind_some, if_pos h2]
    simp only [digits, this, List.map_cons]
    rw [ih fun c hc => h c (by simp [hc])]

theorem parseNat_digits (n : Nat) : parseNat (Nat.toDigits 10 n) = some n := by
  have hd : ∀ c ∈ Nat.toDigits 10 n, c.isDigit = true := fun c hc => Nat.isDigit_of_mem_toDigits (by decide) (by decide) hc
  have hof : (Nat.toDigits 10 n).foldl (fun s c => 10 * s + (c.toNat - '0'.toNat)) 0 = n := Nat.ofDigitChars_ten_toDigits
  have hne : Nat.toDigits 10 n ≠ [] := Nat.toDigits_ne_nil
  generalize Nat.toDigits 10 n = l at hd hof hne
  have hr : radix l = (10, l) := by
    unfold radix
    split
    · have := hd 'x' (by simp); simp [Char.isDigit] at this
    · have := hd 'X' (by simp); simp [Char.isDigit] at this
    · rfl
  unfold parseNat
  rw [hr]
  simp only [digits_map l hd]
  have hm : l.map (fun c => c.toNat - '0'.toNat) ≠ [] := by simpa using hne
  have hf : (l.map fun c => c.toNat - '0'.toNat).foldl (fun n d => n * 10 + d) 0 = n := by
    rw [List.foldl_map, ← hof]
    congr 1
    funext s c
    rw [Nat.mul_comm]
  generalize (l.map fun c => c.toNat - '0'.toNat) = m at hm hf
  cases m with
  | nil => exact absurd rfl hm
  | cons d m => simp only [hf]

theorem parseInt_nat (n : Nat) : parseInt (intText (n : Int)) = some (n : Int) := by
  rw [intText_nat]
  have hd : ∀ c ∈ Nat.toDigits 10 n, c.isDigit = true := fun c hc => Nat.isDigit_of_mem_toDigits (by decide) (by decide) hc
  have hne : Nat.toDigits 10 n ≠ [] := Nat.toDigits_ne_nil
  have hp := parseNat_digits n
  generalize Nat.toDigits 10 n = l at hd hp hne
  cases l with
  | nil => exact absurd rfl hne
  | cons c l =>
    have hc := hd c (by simp)
    have hw : isWhite c = false := by
      cases h : isWhite c with
      | false => rfl
      | true =>
        simp only [isWhite, Bool.or_eq_true, beq_iff_eq] at h
        rcases h with ((rfl | rfl) | rfl) | rfl <;> simp [Char.isDigit] at hc
    unfold parseInt
    rw [List.dropWhile_cons, if_neg (by simp [hw])]
    split
    · rename_i e; simp only [List.cons.injEq] at e; rw [e.1] at hc; simp [Char.isDigit] at hc
    · rename_i e; simp only [List.cons.injEq] at e; rw [e.1] at hc; simp [Char.isDigit] at hc
    · rw [hp]; rfl

theorem intText_inj {a b : Nat} (h : intText (a : Int) = intText (b : Int)) : a = b := by
  have := parseInt_nat a
  rw [h, parseInt_nat b, Option.some.injEq] at this
  omega

/-! ### The next page -/

/-- The highest number so far. -/
def higher (h : Int) (p : Page) : Int :=
  match parseInt p.id with
  | some n => if n > h then n else h
  | none => h

theorem higher_le (l : List Page) (h : Int) : h ≤ l.foldl higher h ∧ ∀ p ∈ l, ∀ n, parseInt p.id = some n → n ≤ l.foldl higher h := by
  induction l generalizing h with
  | nil => simp
  | cons q l ih =>
    simp only [List.foldl_cons]
    obtain ⟨h1, h2⟩ := ih (higher h q)
    have hq : h ≤ higher h q ∧ ∀ n, parseInt q.id = some n → n ≤ higher h q := by
      unfold higher
      cases parseInt q.id with
      | none => simp
      | some n =>
        simp only [Option.some.injEq, forall_eq']
        split <;> omega
    refine ⟨by omega, fun p hp n hn => ?_⟩
    rcases List.mem_cons.1 hp with rfl | hp
    · have := hq.2 n hn
      omega
    · exact h2 p hp n hn

theorem nextPageId_eq (pages : List Page) :
    nextPageId pages = if pages.foldl higher (-1) < 0 then lit "1" else intText (pages.foldl higher (-1) + 1) := rfl

theorem next_page_free (pages : List Page) : ∀ p ∈ pages, p.id ≠ nextPageId pages := by
  intro p hp e
  have hb := (higher_le pages (-1)).2 p hp
  rw [nextPageId_eq] at e
  generalize pages.foldl higher (-1) = m at hb e
  split at e
  · rename_i hm
    have := hb 1 (by rw [e]; exact parseInt_nat 1)
    omega
  · rename_i hm
    obtain ⟨k, hk⟩ := Int.eq_ofNat_of_zero_le (Int.not_lt.1 hm)
    have e1 : m + 1 = ((k + 1 : Nat) : Int) := by omega
    rw [e1] at e
    have := hb _ (by rw [e]; exact parseInt_nat (k + 1))
    omega

/-! ### The next pager -/

theorem stem_inj {stem : Text} {a b : Nat} (h : stem ++ intText (a : Int) = stem ++ intText (b : Int)) : a = b :=
  intText_inj (List.append_cancel_left h)

/-- Enough numbers are tried. -/
theorem free_from (stem : Text) (used : List Text) (fuel cnt : Nat) (rest : List Text) (hr : ∀ k, cnt ≤ k → stem ++ intText (k : Int) ∈ used →
    stem ++ intText (k : Int) ∈ rest) (hl : rest.length ≤ fuel) : freeFrom stem used fuel cnt ∉ used := by
  induction fuel generalizing cnt rest with
  | zero =>
    intro h
    have hm := hr cnt (Nat.le_refl _) h
    have : rest = [] := List.length_eq_zero_iff.1 (Nat.le_zero.1 hl)
    rw [this] at hm
    simp at hm
  | succ fuel ih =>
    simp only [freeFrom]
    split
    · rename_i hm
      have hin := hr cnt (Nat.le_refl _) hm
      refine ih (cnt + 1) (rest.erase (stem ++ intText (cnt : Int))) (fun k hk hku => ?_) ?_
      · refine (List.mem_erase_of_ne ?_).2 (hr k (by omega) hku)
        intro e
        have := stem_inj e
        omega
      · rw [List.length_erase_of_mem hin]
        omega
    · assumption

theorem next_assign_free (stem : Text) (used : List Text) : nextAssign stem used ∉ used := by
  unfold nextAssign
  split
  · exact free_from stem used used.length 2 used (fun _ _ h => h) (Nat.le_refl _)
  · assumption

end PySwitch.Properties
