/-!
Model of the tabs of the web application (`web/htdocs/js/ui/tabs/Tabs.js`, `Tab.js`) with what is kept in the local storage of the browser. The width
of the panel, the buttons of a tab and the refreshing of editors are left out. Names are not empty (they are fixed texts).
-/

namespace PySwitch.Tabs

/-- A tab; `shown`: its contents are displayed, `marked`: its header is highlighted. -/
structure Tab where
  key : Nat
  name : String
  shown : Bool := true
  marked : Bool := false
deriving DecidableEq, Repr

/-- What is kept by the browser: the name of the last active tab, and if the panel is open. (`Tabs.js:25`, keys `current` and `show`.) -/
structure Memory where
  current : Option String := none
  isOpen : Bool := false
deriving DecidableEq, Repr

/-- The state of the page; `isOpen`: the panel is visible. -/
structure State where
  tabs : List Tab := []
  active : Option Nat := none
  mem : Memory := {}
  isOpen : Bool := false
  next : Nat := 0
deriving DecidableEq, Repr

/-- `Tabs.js:72-77` (end of `init`), `show` and `hide` (`Tabs.js:137-162`) write the same value again. -/
def start (m : Memory) : State := { mem := m, isOpen := m.isOpen }

/-- `Tabs.js:120-125` `getTabByName`. -/
def State.byName (s : State) (name : String) : Option Tab := s.tabs.find? fun t => t.name == name

/-- `Tabs.js:216-224` `#updateActive`, `Tab.js:87-104` `deactivate`, `activate`. -/
def State.updateActive (s : State) : State :=
  { s with tabs := s.tabs.map fun t => ⟨t.key, t.name, decide (s.active = some t.key), decide (s.active = some t.key)⟩ }

/-- `Tabs.js:185-201` `setActive`. -/
def State.setActive (s : State) (t : Tab) : State :=
  let s := State.updateActive { s with active := some t.key }
  { s with mem := ⟨some t.name, s.mem.isOpen⟩ }

/-- `Tabs.js:229-247` `#update`. -/
def State.update (s : State) : State :=
  if s.tabs ≠ [] ∧ s.active = none then
    match s.mem.current with
    | some c =>
      match s.byName c with
      | some t => s.setActive t
      | none => s.updateActive
    | none =>
      match s.tabs with
      | t :: _ => s.setActive t
      | [] => s
  else s.updateActive

inductive Ev where
  /-- `Tabs.js:83-96` `add`. -/
  | add (name : String)
  /-- `Tabs.js:101-115` `remove`; `confirmed`: the answer of the user, if the tab has unsaved contents. -/
  | remove (key : Nat) (confirmed : Bool)
  /-- The user selects the header of a tab. (`Tab.js:41-60`, `80-82`.) -/
  | select (key : Nat)
  /-- `Tabs.js:206-211` `setActiveByName`. -/
  | selectName (name : String)
  /-- `Tabs.js:137-153`, `157-162`, `174-180`. -/
  | show | hide | toggle
deriving DecidableEq, Repr

def State.setOpen (s : State) (b : Bool) : State := { s with isOpen := b, mem := ⟨s.mem.current, b⟩ }

def State.step (s : State) : Ev → State
  | .add name => State.update { s with tabs := s.tabs ++ [⟨s.next, name, true, false⟩], next := s.next + 1 }
  | .remove key confirmed =>
    if confirmed then
      State.update { s with tabs := s.tabs.filter (fun t => t.key != key), active := if s.active = some key then none else s.active }
    else s
  | .select key =>
    match s.tabs.find? fun t => t.key == key with
    | some t => s.setActive t
    | none => s
  | .selectName name =>
    match s.byName name with
    | some t => s.setActive t
    | none => s
  | .show => s.setOpen true
  | .hide => s.setOpen false
  | .toggle => s.setOpen (!s.isOpen)

def run (m : Memory) (es : List Ev) : State := es.foldl State.step (start m)

end PySwitch.Tabs
