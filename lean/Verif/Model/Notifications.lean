/-
Model of the messages shown to the user by the web application: `Notifications`
(`web/htdocs/js/ui/misc/Notifications.js`), `PySwitchUI.message` and `reset` (`web/htdocs/js/ui/PySwitchUI.js:53-58, 794-814`),
`Controller.handle` (`web/htdocs/js/Controller.js:107-109`), and the errors of the controller device
(`web/htdocs/js/DeviceController.js:91-96, 121-193`). The progress bar, the console and the fading animation are left out.
-/
namespace PySwitch.Notifications

/-- Texts are lists of characters. (No code of its own.) -/
abbrev Text := List Char

/-- The type of a message (`Notifications.js:80-109`); `other` stands for any other value. A missing type is `error` (line 64). -/
inductive Kind where
  | error | warning | success | info | other
deriving Repr, DecidableEq

/-- `Notifications.js:77-109`: the time in milliseconds after which a message of this type fades out; 0 means never. -/
def fadeTime : Kind → Nat
  | .error => 0
  | .warning => 0
  | .success => 3000
  | .info => 3000
  | .other => 0

/-- `String.includes`, used in `Notifications.js:84`. -/
def includes (t s : Text) : Bool :=
  match s with
  | [] => t.isEmpty
  | c :: r => t.isPrefixOf (c :: r) || includes t r

/-- `Notifications.js:86`, with the version `v` of the application. -/
def hint (v : Text) : Text :=
  "\n\nPlease check if your PySwitch version matches ".toList ++ v ++
    ". If not, use the correct <a href=\"https://pyswitch.tunetown.de/versions\" target=\"_blank\">emulator version</a> for your controller.".toList

/-- `Notifications.js:80-87`: the HTML code set as the content of the message. -/
def content (v : Text) (kind : Kind) (msg : Text) : Text :=
  if kind = .error ∧ includes "Traceback".toList msg = true then msg ++ hint v else msg

/-- Does a `<` followed by this text open a tag or comment? (HTML standard, tag open state: a letter, `/`, `!` or `?`.) -/
def opens (r : Text) : Bool :=
  match r with
  | [] => false
  | c :: _ => c.isAlpha || c == '/' || c == '!' || c == '?'

/-- The text visible for HTML code (`Notifications.js:111`, `html()`): tags are not visible. Simplified: tags and comments end with the next `>`;
character references (`&...;`) are not resolved; all elements show their text. The first argument is true inside of a tag. -/
def visible : Bool → Text → Text
  | _, [] => []
  | true, c :: r => visible (c != '>') r
  | false, c :: r => if c == '<' && opens r then visible true r else c :: visible false r

/-- One message element: `id` is its number, `since` when it has been added, `hide` the flag `alwaysHideAtNewMessage`. (`Notifications.js:74-154`.) -/
structure El where
  id : Nat
  kind : Kind
  html : Text
  since : Nat
  hide : Bool
deriving Repr, DecidableEq

/-- What the error handler of the connection to the controller does (`DeviceController.js:93, 146, 180`): there is none; the one of `connect`,
which calls a method of the main controller which does not exist; or the one of a transfer, which is pending or settled already. -/
inductive Handler where
  | none
  | connected
  | transfer (pending : Bool)
deriving Repr, DecidableEq

/-- The message elements from top to bottom, and the handler for errors of the device. (`Notifications.js:25`.) -/
structure State where
  next : Nat := 0
  els : List El := []
  handler : Handler := .none
deriving Repr, DecidableEq

/-- What happens: `message` is `PySwitchUI.message` (errors of the application come from `Controller.handle`); the user clicks on a message;
the messages are reset when a configuration is loaded or restarted; the application connects to a controller; it starts a transfer or the
transfer ends; the device reports an error. (`PySwitchUI.js:53-58, 794-814`, `DeviceController.js:91-193`.) -/
inductive Ev where
  | message (now : Nat) (kind : Kind) (msg : Text) (hide : Bool)
  | click (id : Nat)
  | reset
  | connect
  | transfer
  | finish
  | deviceError (now : Nat) (msg : Text)
deriving Repr, DecidableEq

/-- `Notifications.js:56-155` `message`: the new element is added at the top, then all elements marked before are removed, and the new one is
marked. -/
def State.message (v : Text) (s : State) (now : Nat) (kind : Kind) (msg : Text) (hide : Bool) : State :=
  { s with next := s.next + 1, els := ⟨s.next, kind, content v kind msg, now, hide⟩ :: s.els.filter fun e => !e.hide }

/-- One event. A click removes the message (`Notifications.js:114-121`). An error of the device is ignored by the handler of `connect`, because it
calls `Controller.message`, which does not exist (`DeviceController.js:95`); the handler of a transfer rejects its promise (lines 146-149,
180-183), which the caller passes to `Controller.handle`; this does nothing if the promise is settled. -/
def State.step (v : Text) (s : State) : Ev → State
  | .message now kind msg hide => s.message v now kind msg hide
  | .click id => { s with els := s.els.filter fun e => e.id != id }
  | .reset => { s with els := [] }
  | .connect => { s with handler := .connected }
  | .transfer => { s with handler := if s.handler = .none then .none else .transfer true }
  | .finish => { s with handler := if s.handler = .transfer true then .transfer false else s.handler }
  | .deviceError now msg =>
    if s.handler = .transfer true then ({ s with handler := .transfer false } : State).message v now .error msg false else s

/-- A history of events. (No code of its own.) -/
def State.run (v : Text) (s : State) (es : List Ev) : State := es.foldl (State.step v) s

/-- `Notifications.js:127-131`: the elements not faded out at a time. -/
def State.seen (s : State) (now : Nat) : List El := s.els.filter fun e => fadeTime e.kind == 0 || decide (now < e.since + fadeTime e.kind)

end PySwitch.Notifications
