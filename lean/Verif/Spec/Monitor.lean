import Verif.Model.Monitor

/-!
What the MIDI monitor is expected to show.
-/

namespace PySwitch.Monitor.Spec
open PySwitch.Monitor

/-- The monitor runs if it was resumed and not stopped afterwards. -/
def Running (es : List Ev) : Prop := ∃ before after, es = before ++ .resume :: after ∧ .stop ∉ after

/-- The message is ignored: someone asked for it, and it was not removed from the list of ignored messages afterwards. (If the same bytes were ignored before under
another name, that name counts.) -/
def Ignored (es : List Ev) (e : Entry) : Prop := ∃ before after, es = before ++ .ignore e :: after ∧
  (∀ x, .unignore x ∈ after → x.bytes ≠ e.bytes) ∧
  ¬ ∃ b1 b2 e', before = b1 ++ .ignore e' :: b2 ∧ e'.bytes = e.bytes ∧ ∀ x, .unignore x ∈ b2 → x.bytes ≠ e.bytes

/-- A message is meant by an ignored one: the same name, or if one of them has no name, the same bytes at the beginning. -/
def Meant (e : Entry) (bytes : List Nat) (name : Option String) : Prop :=
  (∃ n, name = some n ∧ e.name = some n) ∨ ((name = none ∨ e.name = none) ∧ e.bytes <+: bytes)

/-- A message is shown: the monitor runs, and the message is not meant by an ignored one. -/
def Visible (es : List Ev) (bytes : List Nat) (name : Option String) : Prop :=
  Running es ∧ ¬ ∃ e, Ignored es e ∧ Meant e bytes name

/-- All rows, without a limit, added to those before. -/
inductive Added : List Ev → List Row → Prop
  | nil : Added [] []
  | shown {es rows} (i : Bool) (b : List Nat) (n : Option String) : Added es rows → Visible es b n → Added (es ++ [.message i b n]) (rows ++ [.message i b n])
  | hidden {es rows} (i : Bool) (b : List Nat) (n : Option String) : Added es rows → ¬ Visible es b n → Added (es ++ [.message i b n]) rows
  | ignore {es rows} (e : Entry) : Added es rows → Added (es ++ [.ignore e]) rows
  | unignore {es rows} (e : Entry) : Added es rows → Added (es ++ [.unignore e]) rows
  | clear {es rows} : Added es rows → Added (es ++ [.clear]) []
  | reload {es rows} : Added es rows → Added (es ++ [.reload]) []
  | resume {es rows} : Added es rows → ¬ Running es → Added (es ++ [.resume]) (rows ++ [.comment "resumed"])
  | resumed {es rows} : Added es rows → Running es → Added (es ++ [.resume]) rows
  | stop {es rows} : Added es rows → Running es → Added (es ++ [.stop]) (rows ++ [.comment "stopped"])
  | stopped {es rows} : Added es rows → ¬ Running es → Added (es ++ [.stop]) rows

end PySwitch.Monitor.Spec
