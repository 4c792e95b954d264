import Verif.Model.Layout
/-
What it means to divide an area, in terms of pixels.
-/
namespace PySwitch.Layout

/-- The pixel with these coordinates belongs to the area. -/
def Bounds.Has (b : Bounds) (px py : Int) : Prop := b.x ≤ px ∧ px < b.x + b.width ∧ b.y ≤ py ∧ py < b.y + b.height

instance (b : Bounds) (px py : Int) : Decidable (b.Has px py) := by unfold Bounds.Has; infer_instance

/-- In how many of the areas a pixel is. -/
def covers (areas : List Bounds) (px py : Int) : Nat := areas.countP (fun a => decide (a.Has px py))

/-- The amount of an area that can be removed from a side: its height or width. -/
def Bounds.extent (b : Bounds) : Side → Int
  | .top | .bottom => b.height
  | .left | .right => b.width

/-- The pixel is within the given distance of one side of the area. -/
def Bounds.Near (b : Bounds) (n px py : Int) : Side → Prop
  | .top => py < b.y + n
  | .bottom => b.y + b.height - n ≤ py
  | .left => px < b.x + n
  | .right => b.x + b.width - n ≤ px

/-- Whole amounts of pixels fitting into what is left, one after the other. -/
def Fits (w h : Int) : List (Side × Rat) → Prop
  | [] => True
  | (.top, a) :: cuts | (.bottom, a) :: cuts => 0 ≤ pyInt a ∧ pyInt a ≤ h ∧ Fits w (h - pyInt a) cuts
  | (.left, a) :: cuts | (.right, a) :: cuts => 0 ≤ pyInt a ∧ pyInt a ≤ w ∧ Fits (w - pyInt a) h cuts

/-- The areas of the elements in a list of children which are not `None`. -/
def areas (cs : List Elem) : List Bounds := (cs.filter Elem.present).map Elem.bounds

/-- An area is split fairly: all parts are inside, no two overlap, all have the same size, the full extent across, they
are in the order of the children, and less than one pixel per part is left over. -/
structure FairSplit (d : Dir) (b : Bounds) (parts : List Bounds) : Prop where
  inside : ∀ a ∈ parts, ∀ px py, a.Has px py → b.Has px py
  disjoint : ∀ px py, covers parts px py ≤ 1
  same : ∀ a ∈ parts, ∀ a' ∈ parts, a.width = a'.width ∧ a.height = a'.height
  across : ∀ a ∈ parts, (d = .horizontal → a.height = b.height) ∧ (d = .vertical → a.width = b.width)
  ordered : parts.Pairwise (fun a a' => (d = .horizontal → a.x + a.width ≤ a'.x) ∧ (d = .vertical → a.y + a.height ≤ a'.y))
  left : parts ≠ [] →
    (d = .horizontal → b.width - (parts.map (·.width)).sum < parts.length ∧ (parts.map (·.width)).sum ≤ b.width) ∧
    (d = .vertical → b.height - (parts.map (·.height)).sum < parts.length ∧ (parts.map (·.height)).sum ≤ b.height)

/-- Every split container in the tree has a valid area, and splits it fairly among its children. -/
inductive LaidOut : Elem → Prop
  | missing : LaidOut .missing
  | other (i : Info) (cs : List Elem) : i.split = none → (∀ c ∈ cs, LaidOut c) → LaidOut (.node i cs)
  | split (i : Info) (cs : List Elem) (d : Dir) : i.split = some d → 0 ≤ i.bounds.width → 0 ≤ i.bounds.height →
      FairSplit d i.bounds (areas cs) → (∀ c ∈ cs, LaidOut c) → LaidOut (.node i cs)

/-- Split containers can be in any state, except inside elements which are not split containers: those do not pass on
their area. -/
inductive Ready : Elem → Prop
  | missing : Ready .missing
  | other (i : Info) (cs : List Elem) : i.split = none → (∀ c ∈ cs, LaidOut c) → Ready (.node i cs)
  | split (i : Info) (cs : List Elem) (d : Dir) : i.split = some d → (∀ c ∈ cs, Ready c) → Ready (.node i cs)

mutual
/-- The areas used for drawing: those of all elements which are not split containers, found by going through nested split
containers. -/
def Elem.cells : Elem → List Bounds
  | .missing => []
  | .node i cs =>
    match i.split with
    | none => [i.bounds]
    | some _ => cellsAll cs

/-- The same for a list of elements. -/
def cellsAll : List Elem → List Bounds
  | [] => []
  | c :: cs => c.cells ++ cellsAll cs
end

end PySwitch.Layout
