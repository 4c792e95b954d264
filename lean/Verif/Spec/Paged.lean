import Verif.Model.Paged
import Verif.Model.Switch
import Verif.Model.PushButton

/-!
What a panel of switches with pages has to do.
-/

namespace PySwitch.Paged.Spec
open PySwitch.Local (Id Pager)

/-- The position of the page with an id. -/
def position (p : Pager) (id : Id) : Option Nat := p.pages.findIdx? fun page => page.id == id

/-- The page (by position) after an action has been pushed on page number `i`. A pager selects its own page, or the next one if it has none
(`0` and the empty text count as none). -/
def turn (p : Pager) (i : Nat) : Kind → Nat
  | .pager =>
    match if p.selectPage.truthy then position p p.selectPage else none with
    | some k => k
    | none => (i + 1) % p.pages.length
  | .select id => (position p id).getD i
  | .other _ => i

/-- The action belongs to all pages or to page number `i`. -/
def OnPage (p : Pager) (i : Nat) (a : Act) : Prop := a.page = none ∨ ∃ page, p.pages[i]? = some page ∧ a.page = some page.id

instance (p : Pager) (i : Nat) (a : Act) : Decidable (OnPage p i a) :=
  decidable_of_iff (a.page = none ∨ a.page = (p.pages[i]?).map (·.id) ∧ (p.pages[i]?).isSome) (by
    unfold OnPage
    cases p.pages[i]? <;> simp)

/-- The numbers of the other actions of a switch on page number `i`. -/
def others (p : Pager) (i : Nat) (as : List Act) : List Nat :=
  as.filterMap fun a =>
    match a.kind with
    | .other k => if OnPage p i a then some k else none
    | _ => none

/-- The numbers of all actions of a switch which has no actions that change pages. -/
def numbers (as : List Act) : List Nat :=
  as.map fun a => match a.kind with | .other k => k | _ => 0

/-- A call of a switch without override action as a call here. -/
def call : Switch.Eff → List Call
  | .push k => [.push k]
  | .release k => [.release k]
  | _ => []

/-- The action changes pages. -/
def Kind.changes : Kind → Bool
  | .other _ => false
  | _ => true

/-- The switch changes pages: its first action does. -/
def changer (c : Config) : Option Act := c.actions.head?.filter fun a => Kind.changes a.kind

/-- A switch as it should be configured: no hold actions, and if it changes pages, this is its first action, and all others are actions of
all pages. -/
def Good (c : Config) : Prop :=
  c.hold = [] ∧ ((∀ a ∈ c.actions, ∃ k, a.kind = .other k) ∨
    ∃ a rest, c.actions = a :: rest ∧ ∀ b ∈ rest, b.page = none ∧ ∃ k, b.kind = .other k)

/-- The switches which are down after a sample. -/
def after (down : Nat → Bool) (e : Sample) : Nat → Bool := fun j => if j = e.switch then e.down else down j

/-- Nobody presses a switch which changes pages while another switch is down. -/
def Quiet (cs : List Config) : (down : Nat → Bool) → List Sample → Prop
  | _, [] => True
  | down, e :: es =>
    (∀ c a, cs[e.switch]? = some c → changer c = some a → e.down = true → down e.switch = false →
      ∀ j, j < cs.length → j ≠ e.switch → down j = false) ∧ Quiet cs (after down e) es

/-- What pressing a switch does on page number `i`: the new page, and if all actions are reset. -/
def pressed (p : Pager) (i : Nat) (c : Config) : Nat × List Call :=
  match changer c with
  | none => (i, [])
  | some a =>
    if OnPage p i a then
      (turn p i a.kind, match a.kind with | .select id => (if position p id = none then [] else [.reset]) | _ => [.reset])
    else (i, [])

/-- What has to happen: pressing a switch pushes its actions of the current page, letting it go releases them. The result are the calls and the
number of the page at the end. -/
def wanted (p : Pager) (cs : List Config) : (i : Nat) → (down : Nat → Bool) → List Sample → List Call × Nat
  | i, _, [] => ([], i)
  | i, down, e :: es =>
    match cs[e.switch]? with
    | none => wanted p cs i down es
    | some c =>
      if e.down = down e.switch then wanted p cs i down es
      else if e.down then
        let r := wanted p cs (pressed p i c).1 (after down e) es
        ((pressed p i c).2 ++ (others p i c.actions).map .push ++ r.1, r.2)
      else
        let r := wanted p cs i (after down e) es
        ((others p i c.actions).map .release ++ r.1, r.2)

/-- The action is pushed and released in turns, and never reset in between: the result tells if it is down at the end. -/
def turns (k : Nat) : Bool → List Call → Option Bool
  | o, [] => some o
  | o, .push j :: cs => if j = k then (if o then none else turns k true cs) else turns k o cs
  | o, .release j :: cs => if j = k then (if o then turns k false cs else none) else turns k o cs
  | o, .reset :: cs => if o then none else turns k false cs

/-- The pushes (`true`) and releases (`false`) of an action. -/
def presses (k : Nat) (cs : List Call) : List Bool :=
  cs.filterMap fun
    | .push j => if j = k then some true else none
    | .release j => if j = k then some false else none
    | .reset => none

/-- What happens to action `k`, as events of a push button action which gets no feedback. -/
def eventsOf (k : Nat) (cs : List Call) : List PushButton.Event :=
  cs.filterMap fun
    | .push j => if j = k then some (.push 0 none) else none
    | .release j => if j = k then some (.release 0 none) else none
    | .reset => some (.reset none)

/-- The states which a push button action sends, if it gets these calls. -/
def sent (mode : PushButton.Mode) (k : Nat) (cs : List Call) : List Bool :=
  (PushButton.run mode (PushButton.initial 600) (eventsOf k cs)).1.flatten.filterMap fun
    | .changed s => some s
    | _ => none

/-- Each push of the action is followed by its release at once. -/
inductive Clicks (k : Nat) : List Call → Prop
  | nil : Clicks k []
  | click (cs : List Call) : Clicks k cs → Clicks k (.push k :: .release k :: cs)
  | other (c : Call) (cs : List Call) : c ≠ .push k → c ≠ .release k → Clicks k cs → Clicks k (c :: cs)

/-- The action is assigned to one switch only, and only once. -/
def Once (cs : List Config) (n : Nat) (k : Nat) : Prop :=
  ∀ (j : Nat) (c : Config), cs[j]? = some c →
    if j = n then (c.actions.filter fun a => decide (a.kind = .other k)).length ≤ 1 else ∀ a ∈ c.actions, a.kind ≠ .other k

end PySwitch.Paged.Spec
