import Verif.Spec.Convert
import Verif.Lemmas.Num
/-
C97: the texts shown for values.
-/
namespace PySwitch.Props
open PySwitch.Convert

namespace C97

theorem oneDigit_nonneg {x : Rat} (h : 0 ≤ x) : oneDigit x = decimalText (pyRound (10 * x)) := by
  have h1 : ¬ x < 0 := Rat.not_lt.2 h
  have h2 : 0 ≤ pyRound (10 * x) := pyRound_nonneg (by grind)
  have h3 : ¬ pyRound (10 * x) < 0 := by omega
  simp only [oneDigit, decimalText, if_neg h1, if_neg h3]

theorem pyRound_strict {a b : Rat} (h : a + 1 < b) : pyRound a < pyRound b := by
  have h1 := (pyRound_near a).1
  have h2 := (pyRound_near b).2
  have : ((pyRound a : Int) : Rat) < ((pyRound b : Int) : Rat) := by grind
  exact Rat.intCast_lt_intCast.1 this

/-- One step of the knob makes more than a tenth of a decibel. -/
theorem decibels_step (v : Int) (h0 : 0 ≤ v) (o : Rat) : decibels v o + 1 / 10 < decibels (v + 1) o := by
  have ho : ∀ v, decibels v o = decibels v 0 + o := by
    intro v; unfold decibels; split <;> grind
  rw [ho v, ho (v + 1)]
  have key : decibels v 0 + 1 / 10 < decibels (v + 1) 0 := by
    by_cases hv : v < 30
    · have : ∀ n : Fin 30, decibels ((n.val : Nat) : Int) 0 + 1 / 10 < decibels ((n.val : Nat) + 1 : Int) 0 := by
        decide +kernel
      have := this ⟨v.toNat, by omega⟩
      simp only at this
      rw [Int.toNat_of_nonneg h0] at this
      exact this
    · have h1 : v ≥ 30 := by omega
      have h2 : v + 1 ≥ 30 := by omega
      unfold decibels
      rw [if_pos h1, if_pos h2, Rat.intCast_add]
      grind
  grind

theorem decibels_mono (v : Int) (h0 : 0 ≤ v) (n : Nat) (o : Rat) :
    decibels v o + 1 / 10 < decibels (v + (n + 1 : Nat)) o := by
  induction n with
  | zero => exact decibels_step v h0 o
  | succ n ih =>
    have h := decibels_step (v + (n + 1 : Nat)) (by omega) o
    have e : v + ((n + 1 + 1 : Nat) : Int) = v + ((n + 1 : Nat) : Int) + 1 := by omega
    rw [e]
    grind

end C97

/-- C97. The gain is shown with one digit, correctly rounded, as a number from 0.0 to 10.0 (for the values from 0 to
16383); a greater value never shows a lower number. -/
theorem C97_gain : ∃ f : Int → Int, (∀ v, 0 ≤ v → gain v = "Gain: " ++ decimalText (f v)) ∧
    (∀ v, 2 * (16383 * f v - 100 * v) ≤ 16383 ∧ 2 * (100 * v - 16383 * f v) ≤ 16383) ∧
    f 0 = 0 ∧ f 16383 = 100 ∧ (∀ v w, v ≤ w → f v ≤ f w) := by
  refine ⟨fun v => pyRound (10 * ((v : Rat) / (16383 / 10))), ?_, ?_, by decide +kernel, by decide +kernel, ?_⟩
  · intro v hv
    have : (0 : Rat) ≤ (v : Rat) := Rat.intCast_nonneg.2 hv
    unfold gain
    rw [C97.oneDigit_nonneg (rat_div_nonneg (by decide +kernel) this)]
  · intro v
    have h := pyRound_near (10 * ((v : Rat) / (16383 / 10)))
    have e : 10 * ((v : Rat) / (16383 / 10)) = 100 * (v : Rat) / 16383 := by grind
    simp only [e] at h ⊢
    generalize pyRound (100 * (v : Rat) / 16383) = n at h
    have e2 : 100 * (v : Rat) / 16383 * 16383 = 100 * (v : Rat) := Rat.div_mul_cancel (by decide +kernel)
    have h1 : ((2 * (16383 * n - 100 * v) : Int) : Rat) ≤ ((16383 : Int) : Rat) := by
      rw [Rat.intCast_mul, Rat.intCast_sub, Rat.intCast_mul, Rat.intCast_mul]
      have : ((2 : Int) : Rat) = 2 := rfl
      have : ((16383 : Int) : Rat) = 16383 := rfl
      have : ((100 : Int) : Rat) = 100 := rfl
      grind
    have h2 : ((2 * (100 * v - 16383 * n) : Int) : Rat) ≤ ((16383 : Int) : Rat) := by
      rw [Rat.intCast_mul, Rat.intCast_sub, Rat.intCast_mul, Rat.intCast_mul]
      have : ((2 : Int) : Rat) = 2 := rfl
      have : ((16383 : Int) : Rat) = 16383 := rfl
      have : ((100 : Int) : Rat) = 100 := rfl
      grind
    exact ⟨Rat.intCast_le_intCast.1 h1, Rat.intCast_le_intCast.1 h2⟩
  · intro v w h
    refine pyRound_mono ?_
    have : (v : Rat) ≤ (w : Rat) := Rat.intCast_le_intCast.2 h
    grind

example : gain 0 = "Gain: 0.0" ∧ gain 8000 = "Gain: 4.9" ∧ gain 16383 = "Gain: 10.0" := by decide +kernel

/-- C97. The transposition is shown in half steps around 64, with its sign, and different values are shown
differently. -/
theorem C97_transpose (n : Nat) :
    transpose 64 = "Transpose: 0" ∧ transpose (64 + (n + 1)) = "Transpose: +" ++ toString (n + 1) ∧
    transpose (64 - (n + 1)) = "Transpose: -" ++ toString (n + 1) := by
  refine ⟨by decide +kernel, ?_, ?_⟩
  · have h : ((64 : Int) + (n + 1)) - 64 > 0 := by omega
    have e : ((64 : Int) + (n + 1)) - 64 = ((n + 1 : Nat) : Int) := by omega
    simp only [transpose, if_pos h]
    rw [e]; rfl
  · have h : ¬ ((64 : Int) - (n + 1)) - 64 > 0 := by omega
    have e : ((64 : Int) - (n + 1)) - 64 = Int.negSucc n := by omega
    simp only [transpose, if_neg h]
    rw [e]; rfl

example : transpose 76 = "Transpose: +12" ∧ transpose 52 = "Transpose: -12" := by decide +kernel

/-- C97. The tempo is shown in whole beats per minute: the nearest number to the value, which counts 64ths. -/
theorem C97_bpm (v : Int) : ∃ n : Int, bpm v = toString n ++ " bpm" ∧ 2 * (64 * n - v) ≤ 64 ∧ 2 * (v - 64 * n) ≤ 64 := by
  refine ⟨pyRound ((v : Rat) / 64), rfl, ?_⟩
  have h := pyRound_near ((v : Rat) / 64)
  generalize pyRound ((v : Rat) / 64) = n at h
  have e2 : (v : Rat) / 64 * 64 = v := Rat.div_mul_cancel (by decide +kernel)
  have c2 : ((2 : Int) : Rat) = 2 := rfl
  have c64 : ((64 : Int) : Rat) = 64 := rfl
  have h1 : ((2 * (64 * n - v) : Int) : Rat) ≤ ((64 : Int) : Rat) := by
    rw [Rat.intCast_mul, Rat.intCast_sub, Rat.intCast_mul]; grind
  have h2 : ((2 * (v - 64 * n) : Int) : Rat) ≤ ((64 : Int) : Rat) := by
    rw [Rat.intCast_mul, Rat.intCast_sub, Rat.intCast_mul]; grind
  exact ⟨Rat.intCast_le_intCast.1 h1, Rat.intCast_le_intCast.1 h2⟩

example : bpm 7680 = "120 bpm" := by decide +kernel

/-- C97. Volumes: a number of decibels with one digit and sign, where different positions of the knob always show
different numbers (greater ones for greater positions), for every offset. From 30 on, the number is the correctly
rounded one for 0.24 decibels per step below the offset (the value for 100). The sign can be wrong only for numbers shown
as zero. -/
theorem C97_volume_partial (o : Rat) : ∃ f : Int → Int,
    (∀ v, f v ≠ 0 → volume v o = signedText (f v) ++ "dB") ∧
    (∀ v w, 0 ≤ v → v < w → f v < f w) ∧
    (∀ v : Int, 30 ≤ v → 2 * (f v : Rat) ≤ 20 * (o - 24 / 100 * (100 - v)) + 1 ∧
      20 * (o - 24 / 100 * (100 - v)) ≤ 2 * (f v : Rat) + 1) := by
  refine ⟨fun v => pyRound (10 * decibels v o), ?_, ?_, ?_⟩
  rotate_left 2
  · intro v hv
    have h := pyRound_near (10 * decibels v o)
    have e : decibels v o = o - 24 / 100 * (100 - v) := by unfold decibels; rw [if_pos hv]; grind
    simp only
    rw [e] at h ⊢
    constructor <;> grind
  · intro v hn
    have key : ∀ x : Rat, pyRound (10 * x) ≠ 0 → (if x > 0 then "+" else "") ++ oneDigit x =
        signedText (pyRound (10 * x)) := by
      intro x hx
      have hmono : ∀ y : Rat, 0 ≤ y → 0 ≤ pyRound y := fun y h => pyRound_nonneg h
      by_cases h0 : 0 < x
      · have h1 : 0 ≤ pyRound (10 * x) := hmono _ (by grind)
        have h2 : pyRound (10 * x) > 0 := by omega
        rw [C97.oneDigit_nonneg (by grind)]
        simp only [signedText, if_pos h2, gt_iff_lt, if_pos h0]
      · have h3 : pyRound (10 * x) ≤ 0 := by
          have := pyRound_mono (x := 10 * x) (y := ((0 : Int) : Rat)) (by
            have : ((0 : Int) : Rat) = 0 := rfl
            grind)
          rw [pyRound_intCast] at this
          exact this
        have h4 : pyRound (10 * x) < 0 := by omega
        have h5 : ¬ pyRound (10 * x) > 0 := by omega
        have h6 : x < 0 := by
          apply Classical.byContradiction
          intro h
          have h1 := hmono (10 * x) (by grind)
          omega
        simp only [signedText, decimalText, oneDigit, gt_iff_lt, if_neg h0, if_pos h4, if_pos h6]
        rw [if_neg (by omega)]
    show (if decibels v o > 0 then "+" else "") ++ oneDigit (decibels v o) ++ "dB" = _
    rw [key _ hn]
  · intro v w h0 hvw
    apply C97.pyRound_strict
    have h := C97.decibels_mono v h0 (w - v - 1).toNat o
    have e : v + (((w - v - 1).toNat + 1 : Nat) : Int) = w := by omega
    rw [e] at h
    grind

example : volume 100 12 = "+12.0dB" ∧ volume 50 12 = "0.0dB" ∧ volume 0 0 = "-94.9dB" ∧ volume 29 0 = "-17.0dB" ∧
    volume 30 0 = "-16.8dB" := by decide +kernel

/-- C97 fails for numbers shown as zero: these may have a sign, depending on what has been rounded away. -/
theorem C97_volume_zero : volume 54 11 = "-0.0dB" ∧ volume 46 13 = "+0.0dB" := by decide +kernel

end PySwitch.Props
