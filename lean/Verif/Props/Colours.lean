import Verif.Spec.Colours
import Verif.Lemmas.PropertiesNames
/-!
C155: The colour input shows the colour of the text and sets it.
-/
namespace PySwitch.Props
open PySwitch.Colours PySwitch.Colours.Spec
open PySwitch.Properties (Text lit isWhite digits digitOf parseInt parseNat intText radix)

/-! ### Texts -/

theorem c155_removeFirst_ne (p : Char) (ps t : Text) (h : p ∉ t) : removeFirst (p :: ps) t = t := by
  induction t with
  | nil => rfl
  | cons c t ih =>
    simp only [List.mem_cons, not_or] at h
    have : (p :: ps).isPrefixOf (c :: t) = false := by
      simp [List.isPrefixOf, h.1]
    simp only [removeFirst, this, if_neg (by decide : ¬ (false = true)), ih h.2]

theorem c155_removeFirst_end (p : Char) (t : Text) (h : p ∉ t) : removeFirst [p] (t ++ [p]) = t := by
  induction t with
  | nil => simp [removeFirst, List.isPrefixOf]
  | cons c t ih =>
    simp only [List.mem_cons, not_or] at h
    have : [p].isPrefixOf (c :: (t ++ [p])) = false := by simp [List.isPrefixOf, h.1]
    simp only [List.cons_append, removeFirst, this, if_neg (by decide : ¬ (false = true)), ih h.2]

theorem c155_commas_none (t : Text) (h : ',' ∉ t) : commas t = [t] := by
  induction t with
  | nil => rfl
  | cons c t ih =>
    simp only [List.mem_cons, not_or] at h
    simp only [commas, if_neg (Ne.symm h.1), ih h.2]

theorem c155_commas (a b : Text) (h : ',' ∉ a) : commas (a ++ ',' :: b) = a :: commas b := by
  induction a with
  | nil => simp [commas]
  | cons c a ih =>
    simp only [List.mem_cons, not_or] at h
    simp only [List.cons_append, commas, if_neg (Ne.symm h.1), ih h.2]

theorem c155_decimal (n : Nat) : decimal n = Nat.toDigits 10 n := PySwitch.Properties.intText_nat n

theorem c155_decimal_digit (n : Nat) : ∀ c ∈ decimal n, c.isDigit = true := by
  rw [c155_decimal]
  exact fun c hc => Nat.isDigit_of_mem_toDigits (by decide) (by decide) hc

theorem c155_mem_padded (p : Nat × Nat) (n : Nat) (c : Char) (h : c ∈ padded p n) : c = ' ' ∨ c.isDigit = true := by
  simp only [padded, blanks, List.mem_append, List.mem_replicate] at h
  rcases h with (⟨-, rfl⟩ | h) | ⟨-, rfl⟩
  · exact Or.inl rfl
  · exact Or.inr (c155_decimal_digit n c h)
  · exact Or.inl rfl

theorem c155_not_mem (c : Char) (hc : c ≠ ' ') (hd : c.isDigit = false) (p : Nat × Nat) (n : Nat) : c ∉ padded p n := by
  intro h
  rcases c155_mem_padded p n c h with e | e
  · exact hc e
  · rw [hd] at e; simp at e

/-! ### Numbers -/

theorem c155_digits_pad (l : Text) (k : Nat) : digits 10 (l ++ blanks k) = digits 10 l := by
  induction l with
  | nil => cases k <;> rfl
  | cons c l ih =>
    simp only [List.cons_append, digits]
    cases digitOf 10 c with
    | none => rfl
    | some d => simp only [ih]

theorem c155_parseNat_pad (n k : Nat) : parseNat (decimal n ++ blanks k) = some n := by
  have hp := PySwitch.Properties.parseNat_digits n
  rw [← c155_decimal] at hp
  have hd := c155_decimal_digit n
  have hr : ∀ l : Text, (∀ c ∈ l, c.isDigit = true) → radix (l ++ blanks k) = (10, l ++ blanks k) := by
    intro l hl
    have hx : ∀ c ∈ l ++ blanks k, c ≠ 'x' ∧ c ≠ 'X' := by
      intro c hc
      rcases List.mem_append.1 hc with hc | hc
      · have := hl c hc
        exact ⟨fun e => by rw [e] at this; simp [Char.isDigit] at this, fun e => by rw [e] at this; simp [Char.isDigit] at this⟩
      · rw [(List.mem_replicate.1 hc).2]; exact ⟨by decide, by decide⟩
    generalize l ++ blanks k = t at hx
    unfold radix
    split
    · exact absurd rfl (hx 'x' (by simp)).1
    · exact absurd rfl (hx 'X' (by simp)).2
    · rfl
  have hr0 := hr _ hd
  have hr1 : radix (decimal n) = (10, decimal n) := by
    have hx : ∀ c ∈ decimal n, c ≠ 'x' ∧ c ≠ 'X' := fun c hc => by
      have := hd c hc
      exact ⟨fun e => by rw [e] at this; simp [Char.isDigit] at this, fun e => by rw [e] at this; simp [Char.isDigit] at this⟩
    generalize decimal n = t at hx
    unfold radix
    split
    · exact absurd rfl (hx 'x' (by simp)).1
    · exact absurd rfl (hx 'X' (by simp)).2
    · rfl
  unfold parseNat at hp ⊢
  rw [hr1] at hp
  rw [hr0]
  simp only [c155_digits_pad] at hp ⊢
  exact hp

theorem c155_dropWhile (k : Nat) (t : Text) : (blanks k ++ t).dropWhile isWhite = t.dropWhile isWhite := by
  induction k with
  | zero => rfl
  | succ k ih => exact ih

theorem c155_parseInt (p : Nat × Nat) (n : Nat) : parseInt (padded p n) = some (n : Int) := by
  unfold parseInt padded
  rw [List.append_assoc, c155_dropWhile]
  have hp := c155_parseNat_pad n p.2
  have hd := c155_decimal_digit n
  have hne : decimal n ≠ [] := by rw [c155_decimal]; exact Nat.toDigits_ne_nil
  generalize decimal n = l at hp hd hne
  cases l with
  | nil => exact absurd rfl hne
  | cons c l =>
    have hc := hd c (by simp)
    have hw : isWhite c = false := by
      cases h : isWhite c with
      | false => rfl
      | true =>
        simp only [isWhite, Bool.or_eq_true, beq_iff_eq] at h
        rcases h with ((rfl | rfl) | rfl) | rfl <;> simp [Char.isDigit] at hc
    rw [List.cons_append, List.dropWhile_cons, if_neg (by simp [hw])]
    split
    · rename_i e; simp only [List.cons.injEq] at e; rw [e.1] at hc; simp [Char.isDigit] at hc
    · rename_i e; simp only [List.cons.injEq] at e; rw [e.1] at hc; simp [Char.isDigit] at hc
    · rw [← List.cons_append, hp]; rfl

/-! ### Hexadecimal numbers -/

set_option maxRecDepth 100000 in
theorem c155_toHex : ∀ n < 256, componentToHex (some (.ofNat n)) = hexPair n := by decide +kernel

set_option maxRecDepth 100000 in
theorem c155_parseHex : ∀ n < 256, parseHex (hexPair n) = some (.ofNat n) := by decide +kernel

theorem c155_hexDigit : ∀ n < 16, isHex (hexDigit n) = true ∧ (hexDigit n).toLower = hexDigit n := by decide +kernel

/-! ### Claims -/

/-- The user chooses a colour: the text is this colour in Python. -/
theorem C155_choose (c : Colour) (h : c.Valid) : choose c.html = c.python := by
  obtain ⟨hr, hg, hb⟩ := h
  have e : hexToRgb c.html = (some (.ofNat c.r), some (.ofNat c.g), some (.ofNat c.b)) := by
    show (parseHex (hexPair c.r), parseHex (hexPair c.g), parseHex (hexPair c.b)) = _
    rw [c155_parseHex _ hr, c155_parseHex _ hg, c155_parseHex _ hb]
  have k : ∀ n : Nat, numText (some (n : Int)) = decimal n := fun _ => rfl
  unfold choose
  rw [e]
  simp [Colour.python, Colour.tuple, padded, blanks, k]

theorem c155_rgbToHex (c : Colour) (h : c.Valid) (p q r : Nat × Nat) : rgbToHex (c.tuple p q r) = c.html := by
  obtain ⟨hr, hg, hb⟩ := h
  have N := c155_not_mem
  have e0 : removeFirst ['('] (c.tuple p q r) = padded p c.r ++ ',' :: (padded q c.g ++ ',' :: padded r c.b) ++ [')'] := by
    simp [Colour.tuple, removeFirst, List.isPrefixOf]
  have M : ∀ x : Char, x ≠ ' ' → x.isDigit = false → x ≠ ',' → x ∉ padded p c.r ++ ',' :: (padded q c.g ++ ',' :: padded r c.b) := by
    intro x h1 h2 h3 hm
    simp only [List.mem_append, List.mem_cons] at hm
    rcases hm with hm | hm | hm | hm | hm
    · exact N x h1 h2 _ _ hm
    · exact h3 hm
    · exact N x h1 h2 _ _ hm
    · exact h3 hm
    · exact N x h1 h2 _ _ hm
  unfold rgbToHex
  rw [e0, c155_removeFirst_end ')' _ (M ')' (by decide) (by decide) (by decide))]
  rw [show lit "rgba" = 'r' :: ['g', 'b', 'a'] from rfl, c155_removeFirst_ne 'r' _ _ (M 'r' (by decide) (by decide) (by decide))]
  rw [show lit "rgb" = 'r' :: ['g', 'b'] from rfl, c155_removeFirst_ne 'r' _ _ (M 'r' (by decide) (by decide) (by decide))]
  rw [c155_commas _ _ (N ',' (by decide) (by decide) _ _), c155_commas _ _ (N ',' (by decide) (by decide) _ _),
    c155_commas_none _ (N ',' (by decide) (by decide) _ _)]
  have k0 : component [padded p c.r, padded q c.g, padded r c.b] 0 = some (.ofNat c.r) := c155_parseInt p c.r
  have k1 : component [padded p c.r, padded q c.g, padded r c.b] 1 = some (.ofNat c.g) := c155_parseInt q c.g
  have k2 : component [padded p c.r, padded q c.g, padded r c.b] 2 = some (.ofNat c.b) := c155_parseInt r c.b
  simp only [k0, k1, k2, c155_toHex _ hr, c155_toHex _ hg, c155_toHex _ hb]
  rfl

theorem c155_sanitize (c : Colour) (h : c.Valid) : sanitize c.html = c.html := by
  obtain ⟨hr, hg, hb⟩ := h
  have B := c155_hexDigit
  have r1 := B (c.r / 16) (by omega)
  have r2 := B (c.r % 16) (by omega)
  have g1 := B (c.g / 16) (by omega)
  have g2 := B (c.g % 16) (by omega)
  have b1 := B (c.b / 16) (by omega)
  have b2 := B (c.b % 16) (by omega)
  unfold sanitize
  rw [if_pos]
  · simp [Colour.html, hexPair, r1.2, r2.2, g1.2, g2.2, b1.2, b2.2]
  · refine ⟨rfl, rfl, ?_⟩
    simp [Colour.html, hexPair, r1.1, r2.1, g1.1, g2.1, b1.1, b2.1]

/-- The colour input shows each colour which is given as numbers, with any blanks around them, whatever it has shown before. -/
theorem C155_shown (before : Text) (c : Colour) (h : c.Valid) (p q r : Nat × Nat) : shown before (c.tuple p q r) = c.html := by
  have e : resolveColor (c.tuple p q r) = c.tuple p q r := by
    simp [resolveColor, Colour.tuple, lit, List.isPrefixOf]
  unfold shown
  rw [e, if_neg (by simp [Colour.tuple]), c155_rgbToHex c h, c155_sanitize c h]

/-- So the colour which is chosen is the one which is shown, and a colour is not changed by choosing it again. -/
theorem C155_round (before : Text) (c : Colour) (h : c.Valid) :
    shown before (choose c.html) = c.html ∧ choose (shown before c.python) = c.python := by
  have hs := C155_shown before c h (0, 0) (1, 0) (1, 0)
  refine ⟨by rw [C155_choose c h]; exact hs, ?_⟩
  show choose (shown before (c.tuple (0, 0) (1, 0) (1, 0))) = _
  rw [hs, C155_choose c h]

/-- Each colour of the firmware is shown when given by its name. -/
theorem C155_named (before : Text) : ∀ x ∈ named, shown before (lit ("Colors." ++ x.1)) = x.2.html := by
  have B : ∀ x ∈ named, resolveColor (lit ("Colors." ++ x.1)) ≠ [] ∧ sanitize (rgbToHex (resolveColor (lit ("Colors." ++ x.1)))) = x.2.html := by
    decide +kernel
  intro x hx
  unfold shown
  rw [if_neg (B x hx).1, (B x hx).2]

/-! ### Examples -/

example : (⟨255, 128, 7⟩ : Colour).Valid ∧ (⟨255, 128, 7⟩ : Colour).html = lit "#ff8007" ∧ (⟨255, 128, 7⟩ : Colour).python = lit "(255, 128, 7)" ∧
    choose (lit "#ff8007") = lit "(255, 128, 7)" ∧ shown (lit "#000000") (lit "( 255 ,128,  7)") = lit "#ff8007" := by
  refine ⟨⟨by decide, by decide, by decide⟩, ?_⟩
  decide +kernel

example : shown [] (lit "Colors.TURQUOISE") = lit "#40f2d0" := by decide +kernel

/-! ### Disagreements -/

/-- Other colours the firmware accepts are shown as black: several colours, lists instead of tuples, and names other than those of `Colors`. -/
theorem C155_other_witness :
    shown [] (lit "((255, 0, 0), (255, 0, 0))") = lit "#000000" ∧ shown [] (lit "[255, 0, 0]") = lit "#000000" ∧
      shown [] (lit "DEFAULT_SWITCH_COLOR") = lit "#000000" := by decide +kernel

end PySwitch.Props
