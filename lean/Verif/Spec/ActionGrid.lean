import Verif.Model.ActionGrid
/-!
Specification for the layout of the lists of actions. The grid library puts the item with number `k`, with its margins, at the
position given by the entries `2 k` and `2 k + 1` of the slots, so the item itself starts after its left and top margin.
-/

namespace PySwitch.Spec.ActionGrid
open PySwitch.ActionGrid

/-- A rectangle on the screen: from `x` to `x'` and from `y` to `y'`. -/
structure Box where
  x : Int
  y : Int
  x' : Int
  y' : Int
deriving Repr, DecidableEq

/-- Where the item with number `k` appears. -/
def box (items : List Item) (k : Nat) : Option Box :=
  match items[k]?, (layout items).slots[2 * k]?, (layout items).slots[2 * k + 1]? with
  | some i, some x, some y => some ⟨x + i.left, y + i.top, x + i.left + i.width, y + i.top + i.height⟩
  | _, _, _ => none

/-- The sizes and margins are not negative. -/
def Sane (items : List Item) : Prop :=
  ∀ i ∈ items, 0 ≤ i.width ∧ 0 ≤ i.height ∧ 0 ≤ i.top ∧ 0 ≤ i.right ∧ 0 ≤ i.bottom ∧ 0 ≤ i.left

/-- The height of an item with its margins. -/
def outer (i : Item) : Int := i.top + i.height + i.bottom

/-- The width of an item with its margins. -/
def outerWidth (i : Item) : Int := i.left + i.width + i.right

/-- The height of all of them. -/
def total (items : List Item) : Int := (items.map outer).sum

end PySwitch.Spec.ActionGrid
