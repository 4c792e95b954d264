/-!
Model of the lists of actions in the editor (`web/htdocs/js/ui/parser/ParserFrontend.js`, `ParserFrontendInput.js`, `Parser.js`,
`ParserTreeElement.js`, `Controller.js`): what is done with the actions of the inputs by buttons, dialogs and dragging is applied later,
by timers and by a restart which creates all lists anew.

There are the configuration (source code), the tree in memory which is edited, and what is shown. Reading the source code which has been
written for a tree gives the same tree again (see `Model/EditorInput.lean` and C115, C116 for when this is so). The actions are any values.

Left out: the text and the icons of the actions, the steps of a restart which only concern the emulated device. A restart is one step, as
soon as its timer has elapsed. Which of the timers is next is decided by the schedule, see the properties.
-/

namespace PySwitch.FrontendLists

/-- An action which is shown: who it is (the input for which it was created, and its number there), where it belongs to, and what it is.
(`ParserFrontendInput.js:100-155`, `data('handler')`, `data('hold')`.) -/
structure Item (α : Type) where
  id : Nat × Nat
  hold : Bool
  act : α

/-- A list of actions which will be set by a timer, for an input of the lists `gen`. (`ParserFrontendInput.js:564-573, 594-603, 623-632`.) -/
structure Timer (α : Type) where
  gen : Nat
  input : Nat
  hold : Bool
  acts : List α

/-- The state. `known`: inputs which are in the configuration. `valid`: the actions which are shown belong to the tree
(`ParserTreeElement.js:15-28`). `gen` counts the creation of the lists; `queue` are the inputs of the present lists which will be updated from
what is shown (`ParserFrontend.js:11`), and `restarts` are those which are due, with the lists by which they were requested. -/
structure State (α : Type) where
  code : Nat → Bool → List α
  tree : Nat → Bool → List α
  known : Nat → Bool
  grid : Nat → List (Item α)
  valid : Bool := true
  gen : Nat := 0
  timers : List (Timer α) := []
  queue : List Nat := []
  restarts : List Nat := []

variable {α : Type}

/-- The actions of an input, with their place. (`ParserFrontendInput.js:80-82, 158-174`.) -/
def entries (code : Nat → Bool → List α) (n : Nat) : List (Bool × α) :=
  (code n false).map (fun a => (false, a)) ++ (code n true).map (fun a => (true, a))

/-- `ParserFrontendInput.js:77-205`: the lists are created, first the actions for a press and then those for holding. -/
def render (code : Nat → Bool → List α) (n : Nat) : List (Item α) :=
  (entries code n).zipIdx.map fun x => ⟨(n, x.2), x.1.1, x.1.2⟩

/-- `ParserFrontendInput.js:655-661` `#getItemHandlers`. -/
def State.items (s : State α) (n : Nat) (hold : Bool) : List (Item α) := (s.grid n).filter fun i => i.hold == hold

/-- What is set by the user, with the item by its position in the list, and `drag` by the new order. -/
inductive Op (α : Type) where
  | add (n : Nat) (hold : Bool) (a : α)
  | replace (n : Nat) (hold : Bool) (i : Nat) (a : α)
  | remove (n : Nat) (hold : Bool) (i : Nat)
  | change (n : Nat) (hold : Bool) (i : Nat) (a : α)
  | drag (n m : Nat) (l k : List (Item α))

/-- The arguments of actions are read, which is an exception if they are not valid any more. Otherwise a timer will set the list.
(`ParserFrontendInput.js:549-574`, `ParserInputAction.js:79-101`.) `none`: an exception. -/
def State.request (s : State α) (n : Nat) (hold : Bool) (needed : List (Item α)) (acts : List α) : Option (State α) :=
  if s.valid = false ∧ needed ≠ [] then none
  else some { s with timers := s.timers ++ [⟨s.gen, n, hold, acts⟩] }

/-- `ParserFrontendInput.js:549-574` `addAction`. -/
def State.add (s : State α) (n : Nat) (hold : Bool) (a : α) : Option (State α) :=
  s.request n hold (s.items n hold) ((s.items n hold).map Item.act ++ [a])

/-- `ParserFrontendInput.js:579-604` `replaceAction`. -/
def State.replace (s : State α) (n : Nat) (hold : Bool) (x : Item α) (a : α) : Option (State α) :=
  s.request n hold ((s.items n hold).filter fun y => y.id ≠ x.id) ((s.items n hold).map fun y => if y.id = x.id then a else y.act)

/-- `ParserFrontendInput.js:609-633` `removeAction`. -/
def State.remove (s : State α) (n : Nat) (hold : Bool) (x : Item α) : Option (State α) :=
  s.request n hold ((s.items n hold).filter fun y => y.id ≠ x.id) (((s.items n hold).filter fun y => y.id ≠ x.id).map Item.act)

/-- `ParserFrontend.js:105-109` `scheduleForUpdate`. -/
def schedule (queue : List Nat) (n : Nat) : List Nat := if n ∈ queue then queue else queue ++ [n]

/-- `ParserFrontendInput.js:132-146, 295-306, 334-366`: the user does something. After an exception nothing has changed. -/
def State.user (s : State α) : Op α → State α
  | .add n hold a => (s.add n hold a).getD s
  | .replace n hold i a =>
    match (s.items n hold)[i]? with
    | none => s
    | some x => (s.replace n hold x a).getD s
  | .remove n hold i =>
    match (s.items n hold)[i]? with
    | none => s
    | some x => (s.remove n hold x).getD s
  | .change n hold i a =>
    match (s.items n hold)[i]? with
    | none => s
    | some x =>
      match s.remove n hold x with
      | none => s
      | some s' => (s'.add n (!hold) a).getD s'
  | .drag n m l k =>
    { s with grid := fun j => if j = n then l else if j = m then k else s.grid j, queue := schedule (schedule s.queue n) m, restarts := s.restarts ++ [s.gen] }

/-- One list of the tree is set. (`ParserInput.js:109-144` `setActions`.) -/
def put (tree : Nat → Bool → List α) (n : Nat) (hold : Bool) (acts : List α) : Nat → Bool → List α :=
  fun j h => if j = n ∧ h = hold then acts else tree j h

/-- `ParserFrontendInput.js:666-673` `#setActions`, `Parser.js:145-188` `input`: an input which is not in the configuration is added before.
This stores the tree, and reads it again. -/
def State.setActions (s : State α) (n : Nat) (hold : Bool) (acts : List α) : State α :=
  if s.known n then { s with tree := put s.tree n hold acts }
  else { s with known := fun j => if j = n then true else s.known j, code := s.tree, valid := false, tree := put s.tree n hold acts }

/-- A timer of an action: the list is set, and a restart is requested. It fails if the lists have been created anew since
(`ParserFrontendInput.js:26-31, 564-573`). -/
def State.fire (s : State α) : State α :=
  match s.timers with
  | [] => s
  | t :: rest =>
    if t.gen = s.gen then
      let s' := { s with timers := rest }.setActions t.input t.hold t.acts
      { s' with restarts := s'.restarts ++ [s'.gen] }
    else { s with timers := rest }

/-- `ParserFrontendInput.js:312-331` `updateInput` for all inputs of the queue (`ParserFrontend.js:131-136`). `false`: an exception. -/
def State.process : State α → List Nat → State α × Bool
  | s, [] => ({ s with queue := [] }, true)
  | s, n :: rest =>
    if s.valid = false ∧ s.grid n ≠ [] then ({ s with queue := rest }, false)
    else
      let press := (s.items n false).map Item.act
      let hold := (s.items n true).map Item.act
      ((s.setActions n false press).setActions n true hold).process rest

/-- `Controller.js:209-247` `restart`, `ParserFrontend.js:127-140`, `Parser.js:235-250` `updateConfig`: what is in the queue of the lists which
requested it is set, the tree is stored, and the lists are created anew. -/
def State.restart (s : State α) : State α :=
  match s.restarts with
  | [] => s
  | g :: rest =>
    let r := if g = s.gen then { s with restarts := rest }.process s.queue else ({ s with restarts := rest }, true)
    if r.2 then { r.1 with code := r.1.tree, grid := render r.1.tree, valid := true, gen := r.1.gen + 1, queue := [] }
    else r.1

/-- What happens: the user, a timer of an action, or a restart. -/
inductive Ev (α : Type) where
  | user (o : Op α)
  | fire
  | restart

/-- One step. -/
def State.step (s : State α) : Ev α → State α
  | .user o => s.user o
  | .fire => s.fire
  | .restart => s.restart

/-- A history. -/
def State.run (s : State α) (es : List (Ev α)) : State α := es.foldl State.step s

/-- The configuration has been loaded. (`PySwitchFrontend.js:37-70`.) -/
def start (code : Nat → Bool → List α) (known : Nat → Bool) : State α := { code := code, tree := code, known := known, grid := render code }

end PySwitch.FrontendLists
