import Verif.Model.Num
/-
Helper lemmas for numbers.
-/
namespace PySwitch

deriving instance DecidableEq for Except

theorem rat_div_le_div {a b c : Rat} (hc : 0 < c) (h : a ≤ b) : a / c ≤ b / c := by
  rw [← Rat.not_lt, Rat.lt_div_iff hc, Rat.div_mul_cancel (by grind)]
  grind

theorem rat_div_nonneg {a c : Rat} (hc : 0 < c) (h : 0 ≤ a) : 0 ≤ a / c := by
  have := rat_div_le_div hc h
  rwa [show (0 : Rat) / c = 0 by rw [Rat.div_def, Rat.zero_mul]] at this

theorem pyInt_of_nonneg {x : Rat} (h : 0 ≤ x) : pyInt x = x.floor := by
  unfold pyInt; rw [if_pos h]

theorem pyInt_nonneg {x : Rat} (h : 0 ≤ x) : 0 ≤ pyInt x := by
  rw [pyInt_of_nonneg h, Rat.le_floor_iff]; exact h

theorem pyInt_mono {x y : Rat} (hx : 0 ≤ x) (h : x ≤ y) : pyInt x ≤ pyInt y := by
  rw [pyInt_of_nonneg hx, pyInt_of_nonneg (by grind)]
  exact Rat.floor_monotone h

theorem pyInt_intCast (n : Int) : pyInt (n : Rat) = n := by
  unfold pyInt
  split
  · rw [Rat.floor_intCast]
  · have : (-(n : Rat)) = ((-n : Int) : Rat) := by simp
    rw [this, Rat.floor_intCast]; simp

theorem pyRound_bounds (x : Rat) : x.floor ≤ pyRound x ∧ pyRound x ≤ x.floor + 1 := by
  unfold pyRound; simp only; split
  · omega
  · split
    · omega
    · split <;> omega

theorem pyRound_mono {x y : Rat} (h : x ≤ y) : pyRound x ≤ pyRound y := by
  have hf := Rat.floor_monotone h
  rcases Int.lt_or_eq_of_le hf with hlt | heq
  · have := (pyRound_bounds x).2
    have := (pyRound_bounds y).1
    omega
  · unfold pyRound
    simp only
    rw [← heq]
    generalize x.floor = f
    by_cases a1 : x - f < 1 / 2
    · rw [if_pos a1]
      split
      · omega
      · split
        · omega
        · split <;> omega
    · have b1 : ¬ y - f < 1 / 2 := by grind
      rw [if_neg a1, if_neg b1]
      by_cases a2 : 1 / 2 < x - f
      · have b2 : 1 / 2 < y - f := by grind
        rw [if_pos a2, if_pos b2]; omega
      · rw [if_neg a2]
        by_cases b2 : 1 / 2 < y - f
        · rw [if_pos b2]; split <;> omega
        · rw [if_neg b2]; omega

/-- Rounding changes a number by at most a half. -/
theorem pyRound_near (x : Rat) : 2 * ((pyRound x : Int) : Rat) ≤ 2 * x + 1 ∧ 2 * x ≤ 2 * ((pyRound x : Int) : Rat) + 1 := by
  have h1 := Rat.floor_le (a := x)
  have h2 := Rat.lt_floor (x := x)
  have e : ((x.floor + 1 : Int) : Rat) = (x.floor : Rat) + 1 := by rw [Rat.intCast_add]; rfl
  unfold pyRound
  simp only
  split
  · constructor <;> grind
  · split
    · rw [e]; constructor <;> grind
    · split
      · constructor <;> grind
      · rw [e]; constructor <;> grind

theorem pyRound_intCast (n : Int) : pyRound (n : Rat) = n := by
  unfold pyRound
  simp only [Rat.floor_intCast]
  rw [if_pos (by grind)]

theorem pyRound_nonneg {x : Rat} (h : 0 ≤ x) : 0 ≤ pyRound x := by
  have := pyRound_mono h
  rwa [show (0 : Rat) = ((0 : Int) : Rat) from rfl, pyRound_intCast] at this

end PySwitch
