import Verif.Model.Misc
import Verif.Model.Num
/-
Model of the local actions (`content/lib/pyswitch/clients/local/actions`): pager (`pager.py:4-170`, `pager_direct.py:4-49`),
rotating messages (`rotate.py`) and parameter up/down (`param_change.py`).
-/
namespace PySwitch.Local

/-- An id of a page or an action. `False` (the default id of many actions) equals 0 in Python, it is `num 0`.
(`controller/actions/__init__.py:45`.) -/
inductive Id where
  | none
  | num (n : Int)
  | str (s : String)
deriving Repr, DecidableEq

/-- Python truth value. (No code of its own: Python.) -/
def Id.truthy : Id → Bool
  | .none => false
  | .num n => n ≠ 0
  | .str s => s ≠ ""

/-! ### Pager -/

/-- A page: the dictionary described in `pager.py:23-28`; `color` and `text` are optional. Colors are numbers, `white` is
the default color. -/
structure Page where
  id : Id
  color : Option Nat := none
  text : Option String := none
deriving Repr, DecidableEq

/-- (255, 255, 255). (`content/lib/pyswitch/colors.py:4`.) -/
def white : Nat := 0xFFFFFF

/-- `pager.py:89-93` `_get_page_index`, from position `i`. -/
def pageIndex (id : Id) : List Page → Nat → Option Nat
  | [], _ => none
  | p :: ps, i => if p.id = id then some i else pageIndex id ps (i + 1)

/-- `pager.py:22-60`: a pager. `selectPage` is the parameter `select_page`, `proxies` are the ids passed to `proxy()`
(69-83) in order, `hasMappings` tells if the parameter `mappings` is not empty, `hasLabel`/`hasBackColor` if there is a
label and if it has a background color. -/
structure Pager where
  pages : List Page
  selectPage : Id := .none
  proxies : List Id := []
  hasMappings : Bool := false
  hasLabel : Bool := true
  hasBackColor : Bool := true
deriving Repr, DecidableEq

/-- `pager.py:58` `__select_page_index`. -/
def Pager.selectIndex (p : Pager) : Option Nat :=
  if p.selectPage.truthy then pageIndex p.selectPage p.pages 0 else none

/-- `current_page_index` and `current_page_id`; the index is -1 before `init` (`pager.py:56-57`). -/
structure PagerState where
  index : Int := -1
  id : Id := .none
deriving Repr, DecidableEq

/-- A switch showing the pager: the pager itself or one of its proxies (by position). (`pager.py:4-170`, `pager_direct.py:4-49`.) -/
inductive Selector where
  | pager
  | proxy (i : Nat)
deriving Repr, DecidableEq

/-- LED brightness: the one for rotating pagers, for the selected page, or for the others (`pager.py:33-35`). -/
inductive Brightness where
  | rotating | on | off
deriving Repr, DecidableEq

/-- What the pager does. (`pager.py:4-170`, `pager_direct.py:4-49`.) -/
inductive PagerEff where
  | resetActions
  | led (s : Selector) (color : Nat) (b : Brightness)
  | labelText (s : String)
  | labelColor (color : Nat)
deriving Repr, DecidableEq

/-- Exceptions. (No code of its own: Python exceptions.) -/
inductive Err where
  | attributeError | indexError | exception
deriving Repr, DecidableEq

/-- `self.pages[i]` for an index which is not negative. (Used in `pager.py:103-170`.) -/
def getPage (pages : List Page) (i : Int) : Except Err Page :=
  match pages[i.toNat]? with
  | some p => .ok p
  | none => .error .indexError

/-- `pager_direct.py:31-49` `update_displays` of the proxy at position `i`. `enabled` includes the test in line 32-33 (the
proxy is assigned to a switch). -/
def proxyDisplay (p : Pager) (st : PagerState) (enabled : Selector → Bool) (i : Nat) (id : Id) :
    Except Err (List PagerEff) :=
  match pageIndex id p.pages 0 with
  | none => .ok []
  | some k =>
    if !enabled (.proxy i) then .ok []
    else match getPage p.pages k with
      | .error e => .error e
      | .ok page =>
        .ok [.led (.proxy i) (page.color.getD white) (if (k : Int) = st.index then .on else .off)]

/-- `pager.py:168-169`: update all proxies. -/
def proxyDisplays (p : Pager) (st : PagerState) (enabled : Selector → Bool) : List Id → Nat → Except Err (List PagerEff)
  | [], _ => .ok []
  | id :: ids, i =>
    match proxyDisplay p st enabled i id with
    | .error e => .error e
    | .ok es =>
      match proxyDisplays p st enabled ids (i + 1) with
      | .error e => .error e
      | .ok es' => .ok (es ++ es')

/-- `pager.py:136-155`: the LEDs of the pager. -/
def pagerLed (p : Pager) (st : PagerState) (page : Page) : Except Err (List PagerEff) :=
  match p.selectIndex with
  | some k =>
    match getPage p.pages k with
    | .error e => .error e
    | .ok sel => .ok [.led .pager (sel.color.getD white) (if (k : Int) = st.index then .on else .off)]
  | none => .ok [.led .pager (page.color.getD white) .rotating]

/-- `pager.py:157-165`: the label. -/
def pagerLabel (p : Pager) (page : Page) : List PagerEff :=
  if p.hasLabel then
    [.labelText (page.text.getD "")] ++ (if p.hasBackColor then [.labelColor (page.color.getD white)] else [])
  else []

/-- `pager.py:124-169` `update_displays`. `enabled` are the answers of the `enabled` properties. -/
def pagerDisplays (p : Pager) (st : PagerState) (enabled : Selector → Bool) : Except Err (List PagerEff) :=
  if p.pages.length = 0 then .ok []
  else if st.index < 0 then .ok []
  else if !enabled .pager then .ok []
  else match getPage p.pages st.index with
    | .error e => .error e
    | .ok page =>
      match pagerLed p st page with
      | .error e => .error e
      | .ok leds =>
        match proxyDisplays p st enabled p.proxies 0 with
        | .error e => .error e
        | .ok es => .ok (leds ++ pagerLabel p page ++ es)

/-- `pager.py:96-100` `init`. -/
def pagerInit (p : Pager) : PagerState :=
  { index := 0, id := match p.pages[0]? with | some page => page.id | none => .none }

/-- `pager.py:110-117`: the new position. (The `while` in 116-117 runs at most once.) -/
def pushIndex (p : Pager) (st : PagerState) : Int :=
  match p.selectIndex with
  | some k => k
  | none => if st.index + 1 ≥ p.pages.length then 0 else st.index + 1

/-- `pager.py:103-122` `push`. -/
def pagerPush (p : Pager) (st : PagerState) (enabled : Selector → Bool) : Except Err (PagerState × List PagerEff) :=
  if p.pages.length = 0 then .ok (st, [])
  else if st.index < 0 then .ok (st, [])
  else
    match getPage p.pages (pushIndex p st) with
    | .error e => .error e
    | .ok page =>
      let st' : PagerState := { index := pushIndex p st, id := page.id }
      match pagerDisplays p st' enabled with
      | .error e => .error e
      | .ok es => .ok (st', .resetActions :: es)

/-- `pager_direct.py:15-29` `push` of a proxy for the page `id`. Before `init`, the pager has no switch. -/
def proxyPush (p : Pager) (st : PagerState) (enabled : Selector → Bool) (id : Id) :
    Except Err (PagerState × List PagerEff) :=
  if st.index < 0 then .error .exception
  else if p.pages.length = 0 then .ok (st, [])
  else match pageIndex id p.pages 0 with
    | none => .ok (st, [])
    | some k =>
      match getPage p.pages k with
      | .error e => .error e
      | .ok page =>
        let st' : PagerState := { index := k, id := page.id }
        match pagerDisplays p st' enabled with
        | .error e => .error e
        | .ok es => .ok (st', .resetActions :: es)

/-- What happens to a pager. `update` is the periodic update: `PagerAction` inherits `update` of `Callback`
(`controller/callbacks/__init__.py:43-45`), not the one of `Action`, and `Callback.init` is never called. -/
inductive PagerEvent where
  | push (enabled : Selector → Bool)
  | proxy (i : Nat) (enabled : Selector → Bool)
  | update

/-- One event. Pushing a proxy which does not exist does nothing. (`pager.py:4-170`, `pager_direct.py:4-49`, see `PagerEvent`.) -/
def pagerStep (p : Pager) (st : PagerState) : PagerEvent → Except Err (PagerState × List PagerEff)
  | .push enabled => pagerPush p st enabled
  | .proxy i enabled =>
    match p.proxies[i]? with
    | none => .ok (st, [])
    | some id => proxyPush p st enabled id
  | .update => if p.hasMappings then .error .attributeError else .ok (st, [])

/-- A history of events: the final state and the effects of each event. (No code of its own: a history of `pagerStep`.) -/
def pagerRun (p : Pager) : PagerState → List PagerEvent → Except Err (PagerState × List (List PagerEff))
  | st, [] => .ok (st, [])
  | st, e :: es =>
    match pagerStep p st e with
    | .error x => .error x
    | .ok r =>
      match pagerRun p r.1 es with
      | .error x => .error x
      | .ok rest => .ok (rest.1, r.2 :: rest.2)

/-- `pager.py:10-11`: is an action with this id enabled, if its enable callback is the one of the pager? -/
def pagerEnabled (st : PagerState) (actionId : Id) : Bool := actionId == st.id

/-! ### Rotating messages -/

/-- `rotate.py:67-82`: the configuration. `none` and empty lists are both falsy. Texts, colors and messages are opaque. -/
structure Rotate where
  messages : List (List Nat)
  messagesRelease : List (List Nat) := []
  ledColors : List Nat := []
  displayColors : List Nat := []
  texts : List String := []
  hasLabel : Bool := true
deriving Repr, DecidableEq

/-- `rotate.py:81` `__display_colors`. -/
def Rotate.labelColors (c : Rotate) : List Nat := if c.displayColors ≠ [] then c.displayColors else c.ledColors

/-- `rotate.py:84-88`: the positions. -/
structure RotateState where
  messages : Nat := 0
  release : Nat := 0
  led : Nat := 0
  display : Nat := 0
  text : Nat := 0
deriving Repr, DecidableEq

/-- What the action does. (`rotate.py:59-136`.) -/
inductive RotateEff where
  | send (raw : List Nat)
  | led (color : Nat)
  | labelText (s : String)
  | labelColor (color : Nat)
deriving Repr, DecidableEq

/-- `list[pos]`, as effects. (Used in `rotate.py:104-136`.) -/
def item {α : Type} (l : List α) (pos : Nat) (f : α → RotateEff) : Except Err (List RotateEff) :=
  if l = [] then .ok []
  else match l[pos]? with
    | some x => .ok [f x]
    | none => .error .indexError

/-- Python truth value of a list (no code of its own). -/
instance {α : Type} (l : List α) : Decidable (l = []) :=
  match l with
  | [] => .isTrue rfl
  | _ :: _ => .isFalse (by simp)

/-- `rotate.py:104-124` `__next_step`, one position. -/
def next {α : Type} (l : List α) (pos : Nat) : Nat :=
  match l with
  | [] => pos + 1
  | l => if pos + 1 ≥ l.length then 0 else pos + 1

/-- `rotate.py:104-124` `__next_step`. -/
def Rotate.nextStep (c : Rotate) (st : RotateState) : RotateState :=
  { messages := next c.messages st.messages
    release := next c.messagesRelease st.release
    led := next c.ledColors st.led
    display := next c.labelColors st.display
    text := next c.texts st.text }

/-- `rotate.py:126-136` `update_displays`. -/
def Rotate.displays (c : Rotate) (st : RotateState) : Except Err (List RotateEff) :=
  match item c.ledColors st.led .led with
  | .error e => .error e
  | .ok a =>
    if !c.hasLabel then .ok a
    else match item c.texts st.text .labelText with
      | .error e => .error e
      | .ok b =>
        match item c.labelColors st.display .labelColor with
        | .error e => .error e
        | .ok d => .ok (a ++ b ++ d)

/-- What happens: the switch is pushed or released, or the displays are updated. (`rotate.py:59-136`.) -/
inductive RotateEvent where
  | push | release | display
deriving Repr, DecidableEq

/-- `rotate.py:93-102` `push` and `release`. -/
def Rotate.step (c : Rotate) (st : RotateState) : RotateEvent → Except Err (RotateState × List RotateEff)
  | .push =>
    match item c.messages st.messages .send with
    | .error e => .error e
    | .ok es => .ok (st, es)
  | .release =>
    match item c.messagesRelease st.release .send with
    | .error e => .error e
    | .ok es =>
      match c.displays (c.nextStep st) with
      | .error e => .error e
      | .ok ds => .ok (c.nextStep st, es ++ ds)
  | .display =>
    match c.displays st with
    | .error e => .error e
    | .ok ds => .ok (st, ds)

/-- A history of events: the final state and the effects of each event. (No code of its own: a history of `Rotate.step`.) -/
def Rotate.run (c : Rotate) : RotateState → List RotateEvent → Except Err (RotateState × List (List RotateEff))
  | st, [] => .ok (st, [])
  | st, e :: es =>
    match c.step st e with
    | .error x => .error x
    | .ok r =>
      match c.run r.1 es with
      | .error x => .error x
      | .ok rest => .ok (rest.1, r.2 :: rest.2)

/-! ### Parameter up/down -/

/-- `param_change.py:48-87`: the configuration. `repeatInterval` is `none` for 0 or `None`. -/
structure ParamChange where
  offset : Int
  max : Int
  repeatInterval : Option Int := some 200
  hasLabel : Bool := true
deriving Repr, DecidableEq

/-- `param_change.py:84-95` and the value of the mapping. `lastValue` is `none` for -1 (never shown). -/
structure ParamState where
  value : Option Int := none
  pushed : Bool := false
  period : Option PeriodCounter := none
  lastValue : Option (Option Int) := none
deriving Repr, DecidableEq

/-- The constructor. (`param_change.py:48-87`, the constructor of the callback.) -/
def ParamChange.init (c : ParamChange) : ParamState :=
  { period := c.repeatInterval.map (fun i => { interval := i }) }

/-- `param_change.py:106-130` `push` at a time: the value sent, if any. The preview is in `Preview`. -/
def ParamChange.push (c : ParamChange) (st : ParamState) (now : Int) : ParamState × Option Int :=
  match st.value with
  | none => (st, none)
  | some value =>
    let v := value + c.offset
    let v := if v < 0 then 0 else v
    let v := if v > c.max then c.max else v
    ({ st with pushed := true, period := st.period.map (·.reset now) }, some v)

/-- `param_change.py:97-104` `update` at a time. -/
def ParamChange.update (c : ParamChange) (st : ParamState) (now : Int) : ParamState × Option Int :=
  if st.pushed then
    match st.period with
    | none => (st, none)
    | some p =>
      let r := p.exceeded now
      if r.1 then c.push { st with period := some r.2 } now else ({ st with period := some r.2 }, none)
  else (st, none)

/-- `param_change.py:135-161` `update_displays`: the brightness factor for a value. The brightness of the LEDs is this times
`led_brightness`, the background color of the label is `int(color * factor)`. -/
def ParamChange.factor (c : ParamChange) (value : Option Int) : Rat :=
  let f : Rat := match value with
    | some v => (v : Rat) / (c.max : Rat)
    | none => 0
  if c.offset < 0 then 1 - f else f

/-- `param_change.py:153-156`: the text replacing "{val}". -/
def ParamChange.valText (c : ParamChange) (value : Option Int) : String :=
  match value with
  | some v => toString (pyRound ((v : Rat) * 100 / (c.max : Rat)))
  | none => "?"

/-- What happens: the switch is pushed or released (`release false`: the action is not enabled at that time, so it is
not told, `controller/inputs.py:95-101`), the periodic update, or a new value of the parameter. -/
inductive ParamEvent where
  | push (now : Int)
  | release (enabled : Bool)
  | update (now : Int)
  | value (v : Option Int)
deriving Repr, DecidableEq

/-- One event, with the value sent. `param_change.py:132-133` `release`. -/
def ParamChange.step (c : ParamChange) (st : ParamState) : ParamEvent → ParamState × Option Int
  | .push now => c.push st now
  | .release enabled => if enabled then ({ st with pushed := false }, none) else (st, none)
  | .update now => c.update st now
  | .value v => ({ st with value := v }, none)

/-- A history: the events with the values sent, and the final state.
(No code of its own: a history of `ParamChange.step`.) -/
def ParamChange.run (c : ParamChange) : ParamState → List ParamEvent → List (ParamEvent × Option Int) × ParamState
  | st, [] => ([], st)
  | st, e :: es =>
    let r := c.step st e
    let rest := c.run r.1 es
    ((e, r.2) :: rest.1, rest.2)

/-! ### Displays of parameter up/down -/

/-- What the displays show for a value, `param_change.py:141-161`: the text (with "{val}" replaced), the brightness factor of
the LEDs and of the label color. -/
structure Shown where
  text : String
  factor : Rat
deriving Repr, DecidableEq

/-- `param_change.py:141-161`: what is shown for a value. -/
def ParamChange.shown (c : ParamChange) (value : Option Int) : Shown := ⟨c.valText value, c.factor value⟩

/-- The value of the mapping, the value shown last (`none` for -1, `param_change.py:94-95`), and `__last_enabled` of the
action (`controller/actions/__init__.py:51`, `none` for -1). -/
structure ShowState where
  value : Option Int := none
  last : Option (Option Int) := none
  lastEnabled : Option Bool := none
deriving Repr, DecidableEq

/-- Events: `start` is the first drawing (`controller/inputs.py:55`); `changed` a new value or the loss of it
(`controller/actions/__init__.py:12-21`); `update` the periodic update (121-128); `reset` the reset of the action (150-152).
`enabled` is the state of the action at that time. -/
inductive ShowEvent where
  | start (enabled : Bool)
  | changed (v : Option Int) (enabled : Bool)
  | update (enabled : Bool)
  | reset
deriving Repr, DecidableEq

/-- `controller/actions/__init__.py:142-147` and `param_change.py:135-139`. -/
def ParamChange.draw (c : ParamChange) (st : ShowState) (enabled : Bool) : ShowState × List Shown :=
  if !enabled then (st, [])
  else if st.last = some st.value then (st, [])
  else ({ st with last := some st.value }, [c.shown st.value])

/-- One event, with what is drawn. (`param_change.py:97-162`, see `ShowEvent`.) -/
def ParamChange.showStep (c : ParamChange) (st : ShowState) : ShowEvent → ShowState × List Shown
  | .start en => c.draw st en
  | .changed v en => c.draw { st with value := v } en
  | .update en =>
    if st.lastEnabled ≠ some en then c.draw { st with last := none, lastEnabled := some en } en else (st, [])
  | .reset => ({ st with last := none }, [])

/-- A history: what is drawn by each event, and the final state.
(No code of its own: a history of `ParamChange.showStep`.) -/
def ParamChange.showRun (c : ParamChange) : ShowState → List ShowEvent → List (List Shown) × ShowState
  | st, [] => ([], st)
  | st, e :: es =>
    let r := c.showStep st e
    let rest := c.showRun r.1 es
    (r.2 :: rest.1, rest.2)

end PySwitch.Local
