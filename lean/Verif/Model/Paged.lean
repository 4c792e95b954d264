import Verif.Model.Local
import Verif.Model.Switch

/-!
Model of switches whose actions belong to pages: `SwitchController.process` (`content/lib/pyswitch/controller/inputs.py:71-154`) with actions which
are asked for `enabled` one after the other, while a pager (`clients/local/actions/pager.py`, `pager_direct.py`) among them may change the page, and
`Controller.reset_actions` (`content/lib/pyswitch/controller/controller.py:160-163`).

There is one pager. What the other actions do is left open: the model writes down which calls they get. Left out: displays and LEDs (C73), override
actions (C15).
-/

namespace PySwitch.Paged
open PySwitch.Local (Id Pager PagerState PagerEff Err)

/-- The pager itself (`pager.py:4`), a proxy which selects a page (`pager_direct.py:4`), or any other action, with a number. -/
inductive Kind where
  | pager
  | select (id : Id)
  | other (k : Nat)
deriving Repr, DecidableEq

/-- An action. `page` is its id if its enable callback is the one of the pager, `none` if it has no enable callback.
(`controller/actions/__init__.py:36-49`.) -/
structure Act where
  kind : Kind
  page : Option Id := none
deriving Repr, DecidableEq

/-- `inputs.py:44-49`: a switch. -/
structure Config where
  actions : List Act
  hold : List Act := []
  rep : Bool := false
deriving Repr, DecidableEq

/-- A call of an action, or of `reset` of all actions. -/
inductive Call where
  | push (k : Nat)
  | release (k : Nat)
  | reset
deriving Repr, DecidableEq

/-- The pager and the calls of the other actions up to now. (No code of its own.) -/
structure World where
  pager : PagerState
  calls : List Call := []
deriving Repr, DecidableEq

/-- `controller/actions/__init__.py:66-67` `enabled`, `pager.py:10-11`. -/
def World.enabled (w : World) (a : Act) : Bool :=
  match a.page with
  | none => true
  | some id => PySwitch.Local.pagerEnabled w.pager id

/-- The calls which follow from what the pager does: `appl.reset_actions()` (`pager.py:121`, `pager_direct.py:28`, `controller.py:160-163`). -/
def resets (es : List PagerEff) : List Call := es.filterMap fun e => if e = .resetActions then some .reset else none

/-- The pager after a push of it or of a proxy. -/
def World.turned (w : World) : Except Err (PagerState × List PagerEff) → Except Err World
  | .error e => .error e
  | .ok r => .ok ⟨r.1, w.calls ++ resets r.2⟩

/-- `push()` of an action. (`pager.py:103-122`, `pager_direct.py:15-29`.) The displays of the pager are updated as if all were enabled, see C73. -/
def World.push (p : Pager) (w : World) (a : Act) : Except Err World :=
  match a.kind with
  | .pager => w.turned (PySwitch.Local.pagerPush p w.pager fun _ => true)
  | .select id => w.turned (PySwitch.Local.proxyPush p w.pager (fun _ => true) id)
  | .other k => .ok ⟨w.pager, w.calls ++ [.push k]⟩

/-- `release()` of an action: pagers have no callback, so nothing happens (`controller/actions/__init__.py:137-139`). -/
def World.release (w : World) (a : Act) : World :=
  match a.kind with
  | .pager => w
  | .select _ => w
  | .other k => ⟨w.pager, w.calls ++ [.release k]⟩

/-- `inputs.py:130-134`: push all actions which are enabled at their turn. -/
def pushAll (p : Pager) : World → List Act → Except Err World
  | w, [] => .ok w
  | w, a :: as =>
    if w.enabled a then
      match w.push p a with
      | .error e => .error e
      | .ok w => pushAll p w as
    else pushAll p w as

/-- `inputs.py:91-98` without hold actions. -/
def releaseAll : World → List Act → World
  | w, [] => w
  | w, a :: as => if w.enabled a then releaseAll (w.release a) as else releaseAll w as

/-- `inputs.py:91-98` with hold actions, and `145-150`. -/
def clickAll (p : Pager) : World → List Act → Except Err World
  | w, [] => .ok w
  | w, a :: as =>
    if w.enabled a then
      match w.push p a with
      | .error e => .error e
      | .ok w => clickAll p (w.release a) as
    else clickAll p w as

/-- `inputs.py:137-154` `__check_hold`. -/
def checkHold (p : Pager) (c : Config) (st : Switch.State) (w : World) (now : Int) : Except Err (Bool × Switch.State × World) :=
  let e := st.period.exceeded now
  let st := { st with period := e.2 }
  if e.1 then
    let st := if c.rep then { st with holdWasActive := true } else { st with holdActive := false }
    match clickAll p w c.hold with
    | .error x => .error x
    | .ok w => .ok (true, st, w)
  else .ok (false, st, w)

/-- `inputs.py:91-101`. -/
def releaseActions (p : Pager) (c : Config) (st : Switch.State) (w : World) : Except Err (Switch.State × World) :=
  let st := { st with holdActive := false, holdWasActive := false }
  if c.hold = [] then .ok (st, releaseAll w c.actions)
  else
    match clickAll p w c.actions with
    | .error x => .error x
    | .ok w => .ok (st, w)

/-- `inputs.py:78-101`, the local function `release`. -/
def release (p : Pager) (c : Config) (st : Switch.State) (w : World) (now : Int) : Except Err (Switch.State × World) :=
  if c.hold = [] then releaseActions p c st w
  else if !st.holdActive then .ok (st, w)
  else
    match checkHold p c st w now with
    | .error x => .error x
    | .ok (true, st, w) => .ok (st, w)
    | .ok (false, st, w) =>
      if st.holdWasActive then .ok ({ st with holdActive := false, holdWasActive := false }, w)
      else releaseActions p c st w

/-- `inputs.py:114-134`: after the hold check. -/
def pushed (p : Pager) (c : Config) (st : Switch.State) (w : World) (now : Int) : Except Err (Switch.State × World) :=
  if st.pushedState then .ok (st, w)
  else
    let st := { st with pushedState := true }
    if c.hold = [] then
      match pushAll p w c.actions with
      | .error x => .error x
      | .ok w => .ok (st, w)
    else .ok ({ st with period := st.period.reset now, holdActive := true }, w)

/-- `inputs.py:71-134` `process`, for the state of the hardware switch. -/
def process (p : Pager) (c : Config) (st : Switch.State) (w : World) (down : Bool) (now : Int) : Except Err (Switch.State × World) :=
  if !down then
    if st.pushedState then release p c { st with pushedState := false } w now else .ok (st, w)
  else if st.holdActive then
    match checkHold p c st w now with
    | .error x => .error x
    | .ok (true, st, w) => .ok (st, w)
    | .ok (false, st, w) => pushed p c st w now
  else pushed p c st w now

/-- The panel: the switches and the world. -/
structure Panel where
  states : List Switch.State
  world : World

/-- One switch is processed. (`controller.py:173-174`; the order of the switches is left open.) -/
structure Sample where
  switch : Nat
  down : Bool
  now : Int
deriving Repr, DecidableEq

def Panel.step (p : Pager) (cs : List Config) (s : Panel) (e : Sample) : Except Err Panel :=
  match cs[e.switch]?, s.states[e.switch]? with
  | some c, some st =>
    match process p c st s.world e.down e.now with
    | .error x => .error x
    | .ok (st, w) => .ok ⟨s.states.set e.switch st, w⟩
  | _, _ => .ok s

def Panel.run (p : Pager) (cs : List Config) : Panel → List Sample → Except Err Panel
  | s, [] => .ok s
  | s, e :: es =>
    match s.step p cs e with
    | .error x => .error x
    | .ok s => s.run p cs es

/-- The start: all switches are up, the pager shows its first page. (`inputs.py:36-61`, `pager.py:96-100`.) -/
def start (p : Pager) (cs : List Config) (holdTime : Int) : Panel :=
  ⟨cs.map fun _ => Switch.initial holdTime, ⟨PySwitch.Local.pagerInit p, []⟩⟩

end PySwitch.Paged
