import Verif.Model.Saving
/-!
What the user relies on when saving, independently of the implementation.
-/
namespace PySwitch.Saving
open PySwitch.Workspace (Files Tab)

/-- A change of the configuration. -/
def IsEdit : Ev → Prop
  | .code _ _ => True
  | .replace _ => True
  | _ => False

/-- What the user has made of the configuration: the changes in order. -/
def edited (f : Files) : List Ev → Files
  | [] => f
  | .code t x :: es => edited (f.put t x) es
  | .replace g :: es => edited g es
  | _ :: es => edited f es

/-- The configuration has been like this at some time. -/
def Was (f : Files) (es : List Ev) (x : Files) : Prop := ∃ n, n ≤ es.length ∧ edited f (es.take n) = x

/-- The user waits until saving is over before changing something. -/
def Patient (kind : Kind) (f : Files) (es : List Ev) : Prop :=
  ∀ before e after, es = before ++ e :: after → IsEdit e → (run kind f before).saves = []

end PySwitch.Saving
