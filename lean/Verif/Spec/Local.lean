import Verif.Model.Local
/-
Specification vocabulary for the local actions: pager, rotating messages, parameter up/down.
-/
namespace PySwitch.Local

/-! ### Pager -/

/-- The page shown as current: the index is the one of a configured page, and the current id is its id. -/
def Current (p : Pager) (st : PagerState) (page : Page) : Prop :=
  0 ≤ st.index ∧ p.pages[st.index.toNat]? = some page ∧ st.id = page.id

/-- The number of pushes of the pager itself. -/
def pushes : List PagerEvent → Nat
  | [] => 0
  | .push _ :: es => pushes es + 1
  | _ :: es => pushes es

/-- No other switch selects a page. -/
def PagerEvent.own : PagerEvent → Bool
  | .proxy _ _ => false
  | _ => true

/-- The switch is enabled during an event. -/
def PagerEvent.enabledFor (s : Selector) : PagerEvent → Bool
  | .push en => en s
  | .proxy _ en => en s
  | .update => true

/-- The text of the label after some effects. -/
def shownText : Option String → List PagerEff → Option String
  | s, [] => s
  | _, .labelText t :: es => shownText (some t) es
  | s, _ :: es => shownText s es

/-- The LEDs of a switch after some effects. -/
def shownLed (x : Selector) : Option (Nat × Brightness) → List PagerEff → Option (Nat × Brightness)
  | s, [] => s
  | s, .led y c b :: es => shownLed x (if y = x then some (c, b) else s) es
  | s, _ :: es => shownLed x s es

/-! ### Rotating messages -/

/-- Entry number `k` of a list, counted around; nothing for an empty list. -/
def cyclic {α : Type} (l : List α) (k : Nat) (f : α → RotateEff) : List RotateEff :=
  match l[k % l.length]? with
  | some x => [f x]
  | none => []

/-- What has to be shown after `k` releases: the color, text and label color number `k`. The label colors are the LED
colors if there are no own ones. -/
def expectedDisplay (c : Rotate) (k : Nat) : List RotateEff :=
  cyclic c.ledColors k .led ++
  (if c.hasLabel then
    cyclic c.texts k .labelText ++ cyclic (if c.displayColors = [] then c.ledColors else c.displayColors) k .labelColor
   else [])

/-- What has to be done for each event, when `k` releases have been before. -/
def expected (c : Rotate) : Nat → List RotateEvent → List (List RotateEff)
  | _, [] => []
  | k, .push :: es => cyclic c.messages k .send :: expected c k es
  | k, .release :: es => (cyclic c.messagesRelease k .send ++ expectedDisplay c (k + 1)) :: expected c (k + 1) es
  | k, .display :: es => expectedDisplay c k :: expected c k es

/-- `k` times: press and release. -/
def presses : Nat → List RotateEvent
  | 0 => []
  | k + 1 => .push :: .release :: presses k

/-! ### Parameter up/down -/

/-- The value of the parameter after some events. -/
def lastValue : Option Int → List ParamEvent → Option Int
  | v, [] => v
  | _, .value v :: es => lastValue v es
  | v, _ :: es => lastValue v es

/-- The time of the last sending, if no release has arrived since then. -/
def heldSince : Option Int → List (ParamEvent × Option Int) → Option Int
  | acc, [] => acc
  | _, (.release true, _) :: es => heldSince none es
  | _, (.push t, some _) :: es => heldSince (some t) es
  | _, (.update t, some _) :: es => heldSince (some t) es
  | acc, _ :: es => heldSince acc es

/-- The value of the parameter after some events. -/
def valueAfter : Option Int → List ShowEvent → Option Int
  | v, [] => v
  | _, .changed v _ :: es => valueAfter v es
  | v, _ :: es => valueAfter v es

/-- The action is enabled during an event. -/
def ShowEvent.enabled : ShowEvent → Bool
  | .start en => en
  | .changed _ en => en
  | .update en => en
  | .reset => true

end PySwitch.Local
