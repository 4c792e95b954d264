import Verif.Model.DefaultDisplay
import Verif.Spec.Layout
/-
Property C102: the display definition shipped with the firmware.
-/
namespace PySwitch.Props
open PySwitch.Layout PySwitch.Label PySwitch.DefaultDisplay

/-- C102. Every pixel of the 240 × 240 display belongs to exactly one of the labels, and no label goes beyond the display. -/
theorem C102_tiles (px py : Int) :
    covers labels px py = if 0 ≤ px ∧ px < 240 ∧ 0 ≤ py ∧ py < 240 then 1 else 0 := by
  simp only [covers, labels, header1, header2, footer1, footer2, rigName, Bounds.Has, List.countP_cons, List.countP_nil]
  grind (splits := 30)

/-- C102. The screen itself has exactly these pixels. -/
theorem C102_screen (px py : Int) : screen.Has px py ↔ 0 ≤ px ∧ px < 240 ∧ 0 ≤ py ∧ py < 240 := by
  simp only [screen, Bounds.Has]
  omega

/-- C102. The backgrounds of neighbouring action labels do not touch each other, nor the borders of the display: there is
at least one free pixel around each of them. -/
theorem C102_gaps (a b : Bounds) (ha : a ∈ [header1, header2, footer1, footer2])
    (hb : b ∈ [header1, header2, footer1, footer2]) (px py qx qy : Int)
    (hp : (background a stroke).Has px py) (hq : (background b stroke).Has qx qy) :
    (0 < px ∧ px < 239 ∧ 0 < py ∧ py < 239) ∧
    (a ≠ b → 1 < (qx - px).natAbs ∨ 1 < (qy - py).natAbs) := by
  simp only [header1, header2, footer1, footer2, List.mem_cons, List.not_mem_nil, or_false] at ha hb
  rcases ha with rfl | rfl | rfl | rfl <;> rcases hb with rfl | rfl | rfl | rfl <;>
    simp [background, stroke, Bounds.Has] at hp hq ⊢ <;> omega

/-- C102. The dot for the state of the protocol covers pixels of the rig name label only, and only in a corner of 6 × 6
pixels. -/
theorem C102_dot (px py : Int) (h : dot.Has px py) :
    rigName.Has px py ∧ (∀ a ∈ labels, a ≠ rigName → ¬ a.Has px py) ∧ 234 ≤ px ∧ py < 46 := by
  have hd : dot = ⟨234, 42, 4, 4⟩ := by decide +kernel
  rw [hd] at h
  simp only [Bounds.Has] at h
  refine ⟨by simp only [rigName, Bounds.Has]; omega, ?_, by omega, by omega⟩
  intro a ha hne
  simp only [labels, List.mem_cons, List.not_mem_nil, or_false] at ha
  rcases ha with rfl | rfl | rfl | rfl | rfl
  · simp only [header1, Bounds.Has]; omega
  · simp only [header2, Bounds.Has]; omega
  · simp only [footer1, Bounds.Has]; omega
  · simp only [footer2, Bounds.Has]; omega
  · exact absurd rfl hne

example : dot.Has 235 43 ∧ (background header1 stroke).Has 1 1 ∧ ¬ (background header1 stroke).Has 0 1 := by decide +kernel

end PySwitch.Props
