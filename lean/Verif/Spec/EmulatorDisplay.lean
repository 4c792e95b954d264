import Verif.Model.EmulatorDisplay

/-! Specification for C148: what lies on top at a pixel, and what is known of the correction of brightness. -/

namespace PySwitch.EmulatorDisplay.Spec

mutual
/-- The color of the topmost element which covers a point, in the coordinates of the surrounding group. -/
def top (px py : Int) : Node → Option Color
  | .rect x y w h fill => if x ≤ px ∧ px < x + w ∧ y ≤ py ∧ py < y + h then some fill else none
  | .group x y items => topAll (px - x) (py - y) items
/-- Later items lie above earlier ones. -/
def topAll (px py : Int) : List Node → Option Color
  | [] => none
  | n :: ns =>
    match topAll px py ns with
    | some c => some c
    | none => top px py n
end

/-- All that is used of `x ↦ x ^ 0.28`. -/
structure Gamma (f : Rat → Rat) : Prop where
  zero : f 0 = 0
  one : f 1 = 1
  strict : ∀ a b, 0 ≤ a → a < b → f a < f b

/-- A line is as full as possible: the first word of the next line does not fit any more. -/
def Full (width : Text → Rat) (max : Rat) (words : List Text) : List Text → Prop
  | [] => True
  | [_] => True
  | l :: m :: r => (∃ w ∈ words, w <+: m ∧ width (l ++ ' ' :: w) > max) ∧ Full width max words (m :: r)

end PySwitch.EmulatorDisplay.Spec
