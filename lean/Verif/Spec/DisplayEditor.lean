import Verif.Model.DisplayEditor

/-! Specification of the display editor. -/

namespace PySwitch.Spec.DisplayEditor

open PySwitch.DisplayEditor

/-- The names which are exported. -/
def exports (root : Tree) : List String := (root.flatten.map (·.assign)).filter (· ≠ "")

/-- The numbers of all elements. -/
def ids (root : Tree) : List Nat := root.flatten.map (·.id)

mutual
/-- All elements, with their children. -/
def subtrees : Tree → List Tree
  | .node d c => .node d c :: subtreesAll c
/-- All elements of a list of trees, with their children. -/
def subtreesAll : List Tree → List Tree
  | [] => []
  | t :: r => subtrees t ++ subtreesAll r
end

/-- The element `p` contains just the elements `c`, from back to front. -/
def Contains (root : Tree) (p : Nat) (c : List Nat) : Prop := ∃ t ∈ subtrees root, t.data.id = p ∧ t.children.map (·.data.id) = c

/-- Displays the editor can be opened with: elements have different numbers, and only those with an argument `children` have some; labels, tuners
and state dots do not. -/
structure Proper (root : Tree) (next : Nat) : Prop where
  distinct : (ids root).Nodup
  fresh : ∀ i ∈ ids root, i < next
  leaves : ∀ t ∈ subtrees root, t.data.container = false → t.children = []
  labels : ∀ d ∈ root.flatten, editable d = true → d.container = false

/-- There are no containers but the whole display. -/
def Flat (root : Tree) : Prop := ∀ t ∈ root.children, t.children = []

/-- The same, with all numbers forgotten. -/
def anonymous (root : Tree) : Tree := root.modify fun d => { d with id := 0 }

/-- One step to the front. -/
def raise (id : Nat) : List Nat → List Nat
  | a :: b :: r => if a = id then b :: a :: r else a :: raise id (b :: r)
  | l => l

/-- One step to the back. -/
def lower (id : Nat) : List Nat → List Nat
  | a :: b :: r => if b = id then b :: a :: r else a :: lower id (b :: r)
  | l => l

/-- To the front of all. -/
def raiseAll (id : Nat) (l : List Nat) : List Nat := if id ∈ l then l.filter (· ≠ id) ++ [id] else l

/-- Rounded to an integer. -/
def Nearest (n : Int) (x : Rat) : Prop := (n : Rat) ≤ x + 1 / 2 ∧ x < n + 1 / 2

/-- Layouts with the same name are the same (as they come from the same assignment). -/
def Shared (root : Tree) : Prop :=
  ∀ d ∈ root.flatten, ∀ d' ∈ root.flatten, ∀ l l', d.layout = some l → d'.layout = some l' → l.assign ≠ "" → l.assign = l'.assign → l.args = l'.args

/-- Names in Python: no digit at the start. (Reserved words are not regarded.) -/
def isIdentifier (s : String) : Bool :=
  match s.toList with
  | [] => false
  | c :: r => (c.isAlpha || c == '_') && r.all fun c => c.isAlphanum || c == '_'

/-- The editor, after anything has been done in it. -/
def Reachable (used : List String) (root : Tree) (next : Nat) (e : Editor) : Prop :=
  Proper root next ∧ ∃ callback events, e = (init used root callback next).run used events

/-- Events which are changes of one element. -/
def isChange : Event → Bool
  | .place .. | .size .. | .rename _ | .setType _ | .argument .. | .layout .. | .version => true
  | _ => false

end PySwitch.Spec.DisplayEditor
