import Verif.Model.FontList
import Verif.Spec.FontList
/-
C214: the list of fonts of the display editor.
-/
namespace PySwitch.Props
open PySwitch.FontList PySwitch.FontList.Spec

namespace C214

theorem insert_perm (a : List Char) (l : List (List Char)) : (FontList.insert a l).Perm (a :: l) := by
  induction l with
  | nil => exact .refl _
  | cons b bs ih =>
    simp only [FontList.insert]
    split
    · exact (List.Perm.cons b ih).trans (List.Perm.swap ..)
    · exact .refl _

theorem sort_perm (l : List (List Char)) : (sort l).Perm l := by
  induction l with
  | nil => exact .refl _
  | cons a as ih => exact (insert_perm a _).trans (ih.cons a)

/-- The sizes are numbers and not decreasing. -/
def Le (a b : List Char) : Prop := ∃ m n, size a = some m ∧ size b = some n ∧ m ≤ n

theorem insert_sorted {a : List Char} {m : Nat} (ha : size a = some m) {l : List (List Char)} (h : l.Pairwise Le) (num : ∀ b ∈ l, ∃ n, size b = some n) :
    (FontList.insert a l).Pairwise Le := by
  induction l with
  | nil => simp [FontList.insert]
  | cons b bs ih =>
    rw [List.pairwise_cons] at h
    obtain ⟨n, hb⟩ := num b (by simp)
    simp only [FontList.insert]
    split
    · rename_i g
      have g' : m > n := by simpa [greater, ha, hb] using g
      rw [List.pairwise_cons]
      refine ⟨?_, ih h.2 fun x hx => num x (by simp [hx])⟩
      intro x hx
      rcases List.mem_cons.1 ((insert_perm a bs).mem_iff.1 hx) with rfl | hx
      · exact ⟨n, m, hb, ha, by omega⟩
      · exact h.1 x hx
    · rename_i g
      have g' : m ≤ n := by simpa [greater, ha, hb] using g
      rw [List.pairwise_cons]
      refine ⟨?_, List.pairwise_cons.2 h⟩
      intro x hx
      rcases List.mem_cons.1 hx with rfl | hx
      · exact ⟨m, n, ha, hb, g'⟩
      · obtain ⟨n', k, h1, h2, h3⟩ := h.1 x hx
        rw [hb] at h1
        cases h1
        exact ⟨m, k, ha, h2, by omega⟩

theorem insert_filter {a : List Char} {m k : Nat} (ha : size a = some m) {l : List (List Char)} (num : ∀ b ∈ l, ∃ n, size b = some n) :
    (FontList.insert a l).filter (fun f => size f == some k) = (a :: l).filter fun f => size f == some k := by
  induction l with
  | nil => rfl
  | cons b bs ih =>
    obtain ⟨n, hb⟩ := num b (by simp)
    simp only [FontList.insert]
    split
    · rename_i g
      have g' : m > n := by simpa [greater, ha, hb] using g
      have ih := ih fun x hx => num x (by simp [hx])
      rw [List.filter_cons, ih]
      by_cases e : n = k
      · have hm : ¬ m = k := by omega
        simp [ha, hb, e, hm]
      · simp [List.filter_cons, ha, hb, e]
    · rfl

theorem prefix_no_digits : digits "/fonts/".toList = [] := by decide
theorem suffix_no_digits : digits ".pcf".toList = [] := by decide

end C214

/-- C214. If all fonts have a number in their name, the list shows all fonts of the file, the smaller ones first, and those of the same size in the order of the file. -/
theorem C214_order (fonts : List (List Char)) (numbers : ∀ f ∈ fonts, ∃ n, size f = some n) :
    (sort fonts).Perm fonts ∧ (sort fonts).Pairwise (fun a b => ∃ m n, size a = some m ∧ size b = some n ∧ m ≤ n) ∧
    ∀ k, (sort fonts).filter (fun f => size f == some k) = fonts.filter fun f => size f == some k := by
  refine ⟨C214.sort_perm fonts, ?_⟩
  induction fonts with
  | nil => exact ⟨List.Pairwise.nil, fun _ => rfl⟩
  | cons a as ih =>
    obtain ⟨h1, h2⟩ := ih fun f hf => numbers f (by simp [hf])
    obtain ⟨m, ha⟩ := numbers a (by simp)
    have num : ∀ b ∈ sort as, ∃ n, size b = some n := fun b hb => numbers b (by simp [(C214.sort_perm as).mem_iff.1 hb])
    refine ⟨C214.insert_sorted ha h1 num, ?_⟩
    intro k
    rw [sort, C214.insert_filter ha num, List.filter_cons, List.filter_cons, h2 k]

/-- C214. Always, the list shows exactly the fonts of the file. The value of an option is the name of the file in quotes. -/
theorem C214_all (fonts : List (List Char)) : ((options fonts).map Option'.value).Perm (fonts.map fun f => ['"'] ++ f ++ ['"']) := by
  unfold options
  rw [List.map_map]
  exact (C214.sort_perm fonts).map _

/-- C214 (partial). A font of a family without digits is shown with the family and its height, which is also its place in the order. Missing: families with digits (false there, see the witness). -/
theorem C214_text_partial (font family : List Char) (height : Nat) (named : Named font family height) :
    size font = some height ∧
    (optionOf font).text = family ++ Nat.toDigits 10 height ++ ".pcf".toList ++ " (".toList ++ Nat.toDigits 10 height ++ "px)".toList := by
  have hs : size font = some height := by
    have hd : digits font = Nat.toDigits 10 height := by
      rw [named.file]
      have h1 : family.filter Char.isDigit = [] := List.filter_eq_nil_iff.2 fun c hc => by simp [named.noDigits c hc]
      have h2 : (Nat.toDigits 10 height).filter Char.isDigit = Nat.toDigits 10 height :=
        List.filter_eq_self.2 fun c hc => Nat.isDigit_of_mem_toDigits (by decide) (by decide) hc
      have p := C214.prefix_no_digits
      have q := C214.suffix_no_digits
      unfold digits at p q ⊢
      rw [List.filter_append, List.filter_append, List.filter_append, p, q, h1, h2]
      simp
    unfold size
    split
    · rename_i h
      rw [hd] at h
      exact absurd h Nat.toDigits_ne_nil
    · rw [hd, Nat.ofDigitChars_ten_toDigits]
  refine ⟨hs, ?_⟩
  unfold optionOf
  rw [hs]
  have hr : removeFirst "/fonts/".toList font = family ++ Nat.toDigits 10 height ++ ".pcf".toList := by
    rw [named.file]
    generalize family ++ Nat.toDigits 10 height ++ ".pcf".toList = rest
    show removeFirst "/fonts/".toList ('/' :: ("fonts/".toList ++ rest)) = rest
    rw [removeFirst]
    have e : '/' :: ("fonts/".toList ++ rest) = "/fonts/".toList ++ rest := rfl
    rw [e, List.take_left', if_pos rfl, List.drop_left']
    · rfl
    · rfl
  rw [hr]
  rfl

/-- C214. If the families of all fonts have no digits, a font which is shown before another one is not higher. -/
theorem C214_heights (fonts : List (List Char)) (named : ∀ f ∈ fonts, ∃ family height, Named f family height) :
    (sort fonts).Perm fonts ∧ (sort fonts).Pairwise fun a b => ∀ f m g n, Named a f m → Named b g n → m ≤ n := by
  have num : ∀ f ∈ fonts, ∃ n, size f = some n := fun f hf => by
    obtain ⟨family, height, h⟩ := named f hf
    exact ⟨height, (C214_text_partial f family height h).1⟩
  obtain ⟨h1, h2, -⟩ := C214_order fonts num
  refine ⟨h1, h2.imp ?_⟩
  rintro a b ⟨m, n, ha, hb, le⟩ f m' g n' na nb
  have e1 := (C214_text_partial a f m' na).1
  have e2 := (C214_text_partial b g n' nb).1
  rw [ha] at e1
  rw [hb] at e2
  cases e1
  cases e2
  exact le

/-- C214. The options are offered in the order of the heights: an option whose value is the name of a font in quotes comes before those of higher fonts. -/
theorem C214_offered (fonts : List (List Char)) (named : ∀ f ∈ fonts, ∃ family height, Named f family height) :
    (options fonts).Pairwise fun a b => ∀ x f m y g n, a.value = '"' :: (x ++ ['"']) → b.value = '"' :: (y ++ ['"']) → Named x f m → Named y g n → m ≤ n := by
  unfold options
  rw [List.pairwise_map]
  refine (C214_heights fonts named).2.imp ?_
  intro a b h x f m y g n ha hb nx ny
  have ea : a = x := by simpa [optionOf] using ha
  have eb : b = y := by simpa [optionOf] using hb
  subst ea eb
  exact h f m g n nx ny

/-- C214. The fonts which are shipped, in the order of the list. -/
theorem C214_shipped : (sort (shipped.map String.toList)).map String.ofList = ["/fonts/OS8.pcf", "/fonts/OS9.pcf", "/fonts/IL9.pcf", "/fonts/VM9.pcf", "/fonts/OS10.pcf", "/fonts/A12.pcf",
    "/fonts/H15.pcf", "/fonts/A15.pcf", "/fonts/H20.pcf", "/fonts/R25.pcf", "/fonts/PT40.pcf", "/fonts/PTSans-NarrowBold-40.pcf", "/fonts/PT60.pcf", "/fonts/PT75.pcf", "/fonts/RB80.pcf",
    "/fonts/L100.pcf"] ∧ ∀ f ∈ shipped, ∃ n, size f.toList = some n := by
  refine ⟨by decide +kernel, ?_⟩
  have h : ∀ f ∈ shipped, (size f.toList).isSome = true := by decide +kernel
  intro f hf
  exact Option.isSome_iff_exists.1 (h f hf)

/-- C214, the code (`Parser.js:407`, `DisplayLabelTypeLayout.js:19`): all digits of the name are put together, so a font of 40 pixels of the family "B612" is shown with 61240 pixels, at the end. -/
theorem C214_family_witness : String.ofList (optionOf "/fonts/B612-40.pcf".toList).text = "B612-40.pcf (61240px)" := by decide +kernel

/-- C214, the code (`Parser.js:407`): a font without digits is shown with "NaNpx". -/
theorem C214_nan_witness : String.ofList (optionOf "/fonts/Big.pcf".toList).text = "Big.pcf (NaNpx)" := by decide +kernel

/-- Non-vacuity: one of the fonts. -/
example : Named "/fonts/PTSans-NarrowBold-40.pcf".toList "PTSans-NarrowBold-".toList 40 ∧
    String.ofList (optionOf "/fonts/PTSans-NarrowBold-40.pcf".toList).text = "PTSans-NarrowBold-40.pcf (40px)" := by
  refine ⟨⟨by decide +kernel, by decide +kernel⟩, by decide +kernel⟩

end PySwitch.Props
