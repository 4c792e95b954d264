/-!
Model of the popups of the web application (`web/htdocs/js/ui/popups/Popup.js`): any number of popups in one container (`PySwitchUI.js:208, 332-336`),
with the handlers which they register at the window.

Events of the window are handled by all handlers which are registered when the event comes in, in this order (jQuery: the list of handlers is
copied before the first one is called, so a handler is called also if another one has just removed it). The callbacks are not part of the model: it
writes down that they are called. What they do to popups is a further event. Left out: contents, headline and CSS classes.
-/

namespace PySwitch.Popup

/-- The options of the popups: is there `confirmClose`, `onClose`, `onReturnKey`? (`Popup.js:12-27`.) -/
structure Options where
  confirm : Nat → Bool
  onClose : Nat → Bool
  onReturn : Nat → Bool

/-- A call of a callback: `confirmClose` with its answer, `onClose`, `onReturnKey`. -/
inductive Call where
  | asked (p : Nat) (yes : Bool)
  | closed (p : Nat)
  | returned (p : Nat)
deriving Repr, DecidableEq

/-- `shown`: the popup has its element in the container (`Popup.js:6-7`). `container`: the container is visible. `keys`, `clicks`: the handlers of the
window. `timers`: the timers which register handlers for clicks (`Popup.js:123-127`). -/
structure State where
  shown : Nat → Bool := fun _ => false
  container : Bool := false
  keys : List Nat := []
  clicks : List Nat := []
  timers : List Nat := []
  calls : List Call := []

/-- `Popup.js:37-52` `hide`. -/
def State.hide (o : Options) (s : State) (p : Nat) (noCallback : Bool := false) : State :=
  ⟨fun q => if q = p then false else s.shown q, false, s.keys.filter (· ≠ p), s.clicks.filter (· ≠ p), s.timers,
    s.calls ++ if !noCallback && o.onClose p then [.closed p] else []⟩

/-- `Popup.js:57-128` `show`. -/
def State.show (o : Options) (s : State) (p : Nat) : State :=
  let s := s.hide o p true
  ⟨fun q => if q = p then true else s.shown q, true, s.keys ++ [p], s.clicks, s.timers ++ [p], s.calls⟩

/-- `Popup.js:61-66` `confirmAndHide`, with the answers to the questions. -/
def State.confirmAndHide (o : Options) (answer : Nat → Bool) (s : State) (p : Nat) : State :=
  if o.confirm p then
    let s : State := ⟨s.shown, s.container, s.keys, s.clicks, s.timers, s.calls ++ [.asked p (answer p)]⟩
    if answer p then s.hide o p else s
  else s.hide o p

/-- What happens. `cross`: the close button of a popup. `inside`: any other click into a popup. `hide`: the code hides a popup (e.g. a button). -/
inductive Ev where
  | show (p : Nat)
  | hide (p : Nat)
  | timer
  | escape (answer : Nat → Bool)
  | enter
  | click (answer : Nat → Bool)
  | cross (p : Nat) (answer : Nat → Bool)
  | inside (p : Nat)

/-- A click which reaches the window. (`Popup.js:124-126`.) -/
def State.click (o : Options) (answer : Nat → Bool) (s : State) : State := s.clicks.foldl (State.confirmAndHide o answer) s

/-- One event. The close button can be used if the popup is visible. If the popup is hidden by it, its elements are removed and with them the handler
which stops the click (`Popup.js:39, 117-119`), so that the click goes on to the window. (`Popup.js:91-93, 104-127`.) -/
def State.step (o : Options) (s : State) : Ev → State
  | .show p => s.show o p
  | .hide p => s.hide o p
  | .timer =>
    match s.timers with
    | [] => s
    | p :: rest => ⟨s.shown, s.container, s.keys, s.clicks ++ [p], rest, s.calls⟩
  | .escape answer => s.keys.foldl (State.confirmAndHide o answer) s
  | .enter => ⟨s.shown, s.container, s.keys, s.clicks, s.timers, s.calls ++ (s.keys.filter o.onReturn).map .returned⟩
  | .click answer => s.click o answer
  | .cross p answer =>
    if s.container && s.shown p then
      let t := s.confirmAndHide o answer p
      if t.shown p then t else t.click o answer
    else s
  | .inside _ => s

def State.run (o : Options) (s : State) (es : List Ev) : State := es.foldl (State.step o) s

/-- What the user sees. (No code of its own: a popup is seen if its element is in a visible container.) -/
def State.visible (s : State) (p : Nat) : Bool := s.container && s.shown p

end PySwitch.Popup
