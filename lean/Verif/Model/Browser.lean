/-!
Model of the browser popup of the web application, which shows a tree of entries: for loading and saving configurations, selecting actions and
clients (`web/htdocs/js/ui/popups/BrowserPopup.js`, `BrowserEntry.js`, `Popup.js`). The tree is built again each time the popup is opened. Drawing,
buttons, the info panel and exceptions of callbacks are left out, and each event runs to its end.
-/

namespace PySwitch.Browser

/-- An entry (`BrowserEntry.js`): its text, the text for sorting, the callback (here a number; `none`: not callable), the children. -/
inductive Entry where
  | mk (text sort : String) (onSelect : Option Nat) (children : List Entry)
deriving Repr

/-- `BrowserEntry.js:133-135` `getText`. -/
def Entry.text : Entry → String
  | .mk t _ _ _ => t

/-- `BrowserEntry.js:126-128` `getSortString`. -/
def Entry.sort : Entry → String
  | .mk _ s _ _ => s

/-- `BrowserEntry.js:190-199` `isCallable`, `call`. -/
def Entry.onSelect : Entry → Option Nat
  | .mk _ _ k _ => k

def Entry.children : Entry → List Entry
  | .mk _ _ _ c => c

/-- The entry at an address: the numbers of the children to go down. Stands for the reference to the entry. -/
def Entry.at (e : Entry) : List Nat → Option Entry
  | [] => some e
  | i :: a =>
    match e.children[i]? with
    | some c => c.at a
    | none => none

/-- The texts on the way to an address, without the one of the root, which is ignored in paths anyway. (`BrowserEntry.js:57-69`
`getHierarchicalPath`.) -/
def Entry.path (e : Entry) : List Nat → List String
  | [] => []
  | i :: a =>
    match e.children[i]? with
    | some c => c.text :: c.path a
    | none => []

/-- `BrowserEntry.js:74-90` `resolvePath`: the address which is found. -/
def Entry.resolve (e : Entry) : List String → List Nat
  | [] => []
  | t :: ts =>
    match e.children.findIdx? fun c => c.text == t with
    | some i =>
      match e.children[i]? with
      | some c => i :: c.resolve ts
      | none => []
    | none => e.resolve ts

/-- Options (`BrowserPopup.js:15-27`): stay open when an entry is selected; comparison of texts (`localeCompare`). -/
structure Options where
  stay : Bool := false
  le : String → String → Bool

/-- `Array.sort` of JavaScript, which keeps the order of equal elements: here as insertion of one after the other from the end. -/
def insertBy (le : α → α → Bool) (x : α) : List α → List α
  | [] => [x]
  | y :: ys => if le x y then x :: y :: ys else y :: insertBy le x ys

def sorted (le : α → α → Bool) : List α → List α
  | [] => []
  | x :: xs => insertBy le x (sorted le xs)

/-- The children which are shown, in order, with their numbers. (`BrowserPopup.js:56-59`, `#sort` `130-147`.) -/
def listing (o : Options) (e : Entry) : List (Nat × Entry) :=
  sorted (fun x y => o.le x.2.sort y.2.sort)
    (((List.range e.children.length).zip e.children).filter fun x => !x.2.children.isEmpty || x.2.onSelect.isSome)

/-- The state: the popup is visible, the tree it has been built from, the address of the entry it shows, the path it remembers, the callbacks
which have been called. -/
structure State where
  visible : Bool := false
  tree : Entry := .mk "" "" none []
  pos : List Nat := []
  lastPath : Option (List String) := none
  called : List Nat := []

/-- `BrowserPopup.js:34-86` `browse` with an entry. -/
def State.browse (o : Options) (s : State) (tree : Entry) (pos : List Nat) : State :=
  match tree.at pos with
  | none => s
  | some e =>
    match e.onSelect with
    | some k => { s with called := s.called ++ [k], visible := s.visible && o.stay }
    | none => { s with visible := true, tree := tree, pos := pos, lastPath := some (tree.path pos) }

/-- What is shown, if the popup is visible. -/
def State.items (o : Options) (s : State) : List (Nat × Entry) :=
  match s.tree.at s.pos with
  | some e => listing o e
  | none => []

inductive Ev where
  /-- The popup is opened, or the tree is loaded again. (`BrowserPopup.js:34-45`.) -/
  | openTree (tree : Entry)
  /-- An entry of the list is selected. (`BrowserEntry.js:155-164`.) -/
  | click (i : Nat)
  /-- The button to go back. (`BrowserPopup.js:184-194`.) -/
  | back
  /-- An entry of the displayed path is selected. (`BrowserEntry.js:109-118`.) -/
  | link (n : Nat)
  /-- Closed by the user. (`Popup.js:34-49, 57-62`.) -/
  | close

def State.step (o : Options) (s : State) : Ev → State
  | .openTree tree => s.browse o tree (match s.lastPath with | some p => tree.resolve p | none => [])
  | .click i =>
    if s.visible then
      match (s.items o)[i]? with
      | some x => s.browse o s.tree (s.pos ++ [x.1])
      | none => s
    else s
  | .back => if s.visible ∧ s.pos ≠ [] then s.browse o s.tree s.pos.dropLast else s
  | .link n => if s.visible ∧ s.pos ≠ [] ∧ n ≤ s.pos.length then s.browse o s.tree (s.pos.take n) else s
  | .close => { s with visible := false }

def run (o : Options) (es : List Ev) : State := es.foldl (State.step o) {}

end PySwitch.Browser
