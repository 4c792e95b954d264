import Verif.Spec.VirtualSetup
/-!
When a rig is chosen by hand at the device: with a button of a rig or a bank, or by its number in the user interface.
-/
namespace PySwitch.RigInput.Spec
open PySwitch.Kemper.Setup PySwitch.Kemper.Setup.Spec

/-- A rig button changes its value, a bank button is used, or a number is typed. -/
def ByHand (p : Player) : Ev → Prop
  | .receive _ _ [176, c, v] => c = 48 ∨ c = 49 ∨ (50 ≤ c ∧ c ≤ 54 ∧ p.button (c - 50) ≠ v)
  | .ui _ (.rig _) => True
  | _ => False

/-- The number `n` has been the rig when it was last chosen by hand, or at the beginning (most recent event first). -/
inductive LastByHand : List Ev → Nat → Prop
  | start : LastByHand [] 0
  | hand {es : List Ev} {e : Ev} (h : ByHand (es.reverse.foldl Player.step {}) e) : LastByHand (e :: es) ((e :: es).reverse.foldl Player.step {}).rig
  | other {es : List Ev} {e : Ev} {n : Nat} (h : ¬ ByHand (es.reverse.foldl Player.step {}) e) (old : LastByHand es n) : LastByHand (e :: es) n

/-- Another device tells the number of the rig: control change 32 or program change. -/
def Remote : Ev → Prop
  | .receive _ _ (176 :: 32 :: _) => True
  | .receive _ _ (192 :: _) => True
  | _ => False

end PySwitch.RigInput.Spec
