import Verif.Model.Num
/-
Areas of the display and their layout: `ui/ui.py` (`DisplayBounds`, the tree of `DisplayElement`), `ui/layout.py`,
`ui/DisplaySplitContainer.py`.
-/
namespace PySwitch.Layout
open PySwitch

/-- `ui/ui.py:5-21` `DisplayBounds`. All four are integers (`int()` in the constructor). -/
structure Bounds where
  x : Int := 0
  y : Int := 0
  width : Int := 0
  height : Int := 0
deriving Repr, DecidableEq

/-- The four sides from which something can be removed. (`ui/layout.py:17-104`.) -/
inductive Side where
  | top | bottom | left | right
deriving Repr, DecidableEq

/-- `ui/layout.py:71-104` `top`, `bottom`, `left`, `right`: a part of the area. -/
def Bounds.part (b : Bounds) (s : Side) (amount : Rat) : Bounds :=
  match s with
  | .top => ⟨b.x, b.y, b.width, pyInt amount⟩
  | .bottom => ⟨b.x, b.y + b.height - pyInt amount, b.width, pyInt amount⟩
  | .left => ⟨b.x, b.y, pyInt amount, b.height⟩
  | .right => ⟨b.x + b.width - pyInt amount, b.y, pyInt amount, b.height⟩

/-- `ui/layout.py:17-68` `remove_from_top`, `remove_from_bottom`, `remove_from_left`, `remove_from_right`: the returned part,
and the area passed after the call (it is changed in place). -/
def Bounds.removeFrom (b : Bounds) (s : Side) (amount : Rat) : Bounds × Bounds :=
  match s with
  | .top => (⟨b.x, b.y, b.width, pyInt amount⟩, { b with y := b.y + pyInt amount, height := b.height - pyInt amount })
  | .bottom => (⟨b.x, b.y + b.height - pyInt amount, b.width, pyInt amount⟩, { b with height := b.height - pyInt amount })
  | .left => (⟨b.x, b.y, pyInt amount, b.height⟩, { b with x := b.x + pyInt amount, width := b.width - pyInt amount })
  | .right => (⟨b.x + b.width - pyInt amount, b.y, pyInt amount, b.height⟩, { b with width := b.width - pyInt amount })

/-- A sequence of removals on the same area, as in a display definition: the parts returned, and what is left of the area.
(No code of its own: repeated `ui/layout.py:17-68`.) -/
def removeAll (b : Bounds) : List (Side × Rat) → List Bounds × Bounds
  | [] => ([], b)
  | (s, a) :: cuts =>
    let r := b.removeFrom s a
    let rest := removeAll r.2 cuts
    (r.1 :: rest.1, rest.2)

/-- `ui/layout.py:6-14` `translated`, `translate`. -/
def Bounds.translate (b : Bounds) (x y : Rat) : Bounds := { b with x := b.x + pyInt x, y := b.y + pyInt y }

/-- `ui/layout.py:107-113` `with_position`. -/
def Bounds.withPosition (b : Bounds) (x y : Rat) : Bounds := ⟨pyInt x, pyInt y, b.width, b.height⟩

/-! ### Display elements -/

/-- `ui/DisplaySplitContainer.py:7-8`. -/
inductive Dir where
  | horizontal | vertical
deriving Repr, DecidableEq

/-- The attributes of a display element, `ui/ui.py:31-44`. `split` is its direction if it is a `DisplaySplitContainer`,
`updateable` tells if it is an `Updateable`, `flag` is `__initialized`. `inits` is not in the code: it counts how often `init`
has been called on the element. The name, the font and the contents are left out here. -/
structure Info where
  id : Nat
  split : Option Dir := none
  updateable : Bool := false
  flag : Bool := false
  inits : Nat := 0
  bounds : Bounds := {}
deriving Repr, DecidableEq

/-- A tree of display elements; `missing` stands for `None` in a list of children. `children = None` (`ui.py:44`) is the empty
list, the code treats both the same. Simplification: an element is not used in two places of the tree. -/
inductive Elem where
  | missing
  | node (info : Info) (children : List Elem)
deriving Repr

/-- The area of an element (not asked for `missing`). (`ui/ui.py:31-44`.) -/
def Elem.bounds : Elem → Bounds
  | .missing => {}
  | .node i _ => i.bounds

/-- `DisplaySplitContainer.py:25`: `x != None`. -/
def Elem.present : Elem → Bool
  | .missing => false
  | .node _ _ => true

/-- `DisplaySplitContainer.py:32-54`: the area for the child with index `i` of `n`. -/
def slot (d : Dir) (b : Bounds) (n i : Nat) : Bounds :=
  match d with
  | .horizontal =>
    let w := pyInt ((b.width : Rat) / (n : Rat))
    ⟨b.x + i * w, b.y, w, b.height⟩
  | .vertical =>
    let h := pyInt ((b.height : Rat) / (n : Rat))
    ⟨b.x, b.y + i * h, b.width, h⟩

mutual
/-- `DisplaySplitContainer.py:38, 48`, followed by 56-61 for this child: sets the area of an element, and lays out its
children if it is a split container. The code first sets the areas of all children and then goes through them again;
as the children are different objects, the result is the same. -/
def Elem.place (b : Bounds) : Elem → Elem
  | .missing => .missing
  | .node i cs =>
    match i.split with
    | none => .node { i with bounds := b } cs
    | some d => .node { i with bounds := b } (placeAll d b (cs.countP Elem.present) 0 cs)

/-- `DisplaySplitContainer.py:35-61`: the loop over the children; `k` counts the children present. -/
def placeAll (d : Dir) (b : Bounds) (n : Nat) : Nat → List Elem → List Elem
  | _, [] => []
  | k, .missing :: cs => .missing :: placeAll d b n k cs
  | k, .node i ccs :: cs => Elem.place (slot d b n k) (.node i ccs) :: placeAll d b n (k + 1) cs
end

/-- `DisplaySplitContainer.py:21-61` `update_bounds`, on a split container. Other elements have no such function. -/
def Elem.updateBounds : Elem → Elem
  | .missing => .missing
  | .node i cs =>
    match i.split with
    | none => .node i cs
    | some d => .node i (placeAll d i.bounds (cs.countP Elem.present) 0 cs)

/-- `ui/ui.py:80-84` `add`, and `DisplaySplitContainer.py:16-18`: for split containers the layout is updated. -/
def Elem.add (child : Elem) : Elem → Elem
  | .missing => .missing
  | .node i cs =>
    match i.split with
    | none => .node i (cs ++ [child])
    | some _ => (Elem.node i (cs ++ [child])).updateBounds

/-- Calls `add` on an element inside the tree, given by the indices of the children leading to it.
(No code of its own: `add` on an element of the tree, `ui/ui.py:80-84`.) -/
def Elem.addAt (child : Elem) : List Nat → Elem → Elem
  | [], e => Elem.add child e
  | _ :: _, .missing => .missing
  | k :: path, .node i cs => .node i (cs.modify k (Elem.addAt child path))

end PySwitch.Layout
