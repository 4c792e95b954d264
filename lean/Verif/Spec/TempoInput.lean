import Verif.Model.TempoInput
/-!
How a tempo is told in MIDI: 64 times the beats per minute, with 16383 for 256 and more.
-/
namespace PySwitch.TempoInput.Spec

/-- The value `v` tells the tempo shown. No tempo is 0. -/
def Tells (v : Nat) : Bpm → Prop
  | .null => v = 0
  | .number n => (n < 256 ∧ v = 64 * n) ∨ (256 ≤ n ∧ v = 16383)
  | .infinity => v = 16383

/-- `n` is the whole number nearest to `a / b`, halves are rounded up. -/
def Nearest (n a b : Nat) : Prop := 2 * n * b ≤ 2 * a + b ∧ 2 * a + b < 2 * (n + 1) * b

end PySwitch.TempoInput.Spec
