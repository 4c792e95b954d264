import Verif.Model.Layout
/-
Initialisation and display of the element trees: `ui/ui.py` (`DisplayElement`), `ui/UiController.py`.
-/
namespace PySwitch.Layout
open PySwitch

mutual
/-- `ui/ui.py:68-77` `initialized`. `None` children are skipped. -/
def Elem.initialized : Elem → Bool
  | .missing => true
  | .node i cs => allInitialized cs && i.flag

/-- `ui/ui.py:68-75`: the loop over the children. -/
def allInitialized : List Elem → Bool
  | [] => true
  | c :: cs => c.initialized && allInitialized cs
end

mutual
/-- `ui/ui.py:50-58` `init`: marks the element, then initialises the children which are not completely initialised yet.
The code of the derived classes (drawing, registering) is represented by the counter `inits`. `DisplayLabel` marks itself
after its own code instead of before (`elements.py:133`); labels have no children, so nothing can tell the difference. -/
def Elem.init : Elem → Elem
  | .missing => .missing
  | .node i cs => .node { i with flag := true, inits := i.inits + 1 } (initAll cs)

/-- `ui/ui.py:50-58`: the loop over the children. -/
def initAll : List Elem → List Elem
  | [] => []
  | c :: cs => (if c.initialized then c else c.init) :: initAll cs
end

mutual
/-- `ui/ui.py:87-97` `contents_flat`. The elements are given by their attributes. -/
def Elem.contentsFlat : Elem → List Info
  | .missing => []
  | .node i cs => i :: flatAll cs

/-- `ui/ui.py:91-95`: the loop over the children. -/
def flatAll : List Elem → List Info
  | [] => []
  | c :: cs => c.contentsFlat ++ flatAll cs
end

/-- State of the `UiController`, `ui/UiController.py:8-15`: the trees which can be shown (these are held by the splash
callback), which of them is the current splash element, what the display driver has been told to show last, and the
elements to be updated (by id). Simplification: the trees are given from the beginning and have no elements in common. -/
structure UiState where
  roots : List Elem
  current : Option Nat := none
  shown : Option Nat := none
  updateables : List Nat := []
deriving Repr

/-- `UiController.py:41-59` `show`, where `get_root()` of the splash callback returns the tree with this number. -/
def UiState.show (st : UiState) (k : Nat) : UiState :=
  if st.current = some k then st
  else
    match st.roots[k]? with
    | none => st
    | some e =>
      let e' := if e.initialized then e else e.init
      { roots := st.roots.set k e', current := some k, shown := some k,
        updateables := (e'.contentsFlat.filter (·.updateable)).map (·.id) }

/-- What can happen: `show` (called by the application at start, and by `parameter_changed`, 30-31), and the addition of an
element somewhere in a tree. (`ui/UiController.py:17-59`.) -/
inductive UiEvent where
  | show (k : Nat)
  | add (k : Nat) (path : List Nat) (child : Elem)
deriving Repr

/-- One event. (`ui/UiController.py:17-59`.) -/
def UiState.step (st : UiState) : UiEvent → UiState
  | .show k => st.show k
  | .add k path child => { st with roots := st.roots.modify k (Elem.addAt child path) }

/-- A history. (No code of its own: a history of `UiState.step`.) -/
def UiState.run (st : UiState) (es : List UiEvent) : UiState := es.foldl UiState.step st

end PySwitch.Layout
