import Verif.Model.Notifications

/-!
What C173 and C174 say about the messages of the web application.
-/

namespace PySwitch.Notifications.Spec
open PySwitch.Notifications

/-- A message given to the user: when, its type, its text, and whether the next message replaces it. -/
structure Given where
  now : Nat
  kind : Kind
  msg : Text
  hide : Bool
deriving Repr, DecidableEq

/-- Is a transfer with the device under way? (The first argument: are we connected, the second: before the events.) -/
def busy : Bool → Bool → List Ev → Bool × Bool
  | c, b, [] => (c, b)
  | _, _, .connect :: es => busy true false es
  | c, _, .transfer :: es => busy c c es
  | c, _, .finish :: es => busy c false es
  | c, _, .deviceError .. :: es => busy c false es
  | c, b, .message .. :: es => busy c b es
  | c, b, .click _ :: es => busy c b es
  | c, b, .reset :: es => busy c b es

/-- The message given to the user by an event: errors of the device are only passed on during a transfer. -/
def given (b : Bool) : Ev → Option Given
  | .message now kind msg hide => some ⟨now, kind, msg, hide⟩
  | .deviceError now msg => if b then some ⟨now, .error, msg, false⟩ else none
  | _ => none

/-- All messages given in a history, in this order. -/
def messages (before : List Ev) : List Ev → List Given
  | [] => []
  | e :: es => (given (busy false false before).2 e).toList ++ messages (before ++ [e]) es

/-- Does an event remove the message with this number? `b`: is a transfer under way? -/
def removes (id : Nat) (g : Given) (b : Bool) : Ev → Bool
  | .click k => k == id
  | .reset => true
  | e => g.hide && (given b e).isSome

/-- Is the message with this number removed by one of the events after it? -/
def removed (id : Nat) (g : Given) (before : List Ev) : List Ev → Bool
  | [] => false
  | e :: es => removes id g (busy false false before).2 e || removed id g (before ++ [e]) es

/-- The messages still there after a history, the newest one first. -/
def remaining (n : Nat) (before : List Ev) : List Ev → List (Nat × Given)
  | [] => []
  | e :: es =>
    match given (busy false false before).2 e with
    | none => remaining n (before ++ [e]) es
    | some g => remaining (n + 1) (before ++ [e]) es ++ if removed n g (before ++ [e]) es then [] else [(n, g)]

/-- How long messages are shown: infos and notices of success for three seconds. -/
def stays (g : Given) (now : Nat) : Bool :=
  match g.kind with
  | .success => decide (now < g.now + 3000)
  | .info => decide (now < g.now + 3000)
  | _ => true

/-- Is there a place where a tag begins? -/
def hasTag (t : Text) : Prop := ∃ a c r, t = a ++ '<' :: c :: r ∧ (c.isAlpha = true ∨ c = '/' ∨ c = '!' ∨ c = '?')

end PySwitch.Notifications.Spec
