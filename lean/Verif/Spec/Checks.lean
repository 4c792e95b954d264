import Verif.Model.EditorInput

/-!
When are two actions visible on one display at the same time?
-/

namespace PySwitch.Spec.Editor
open PySwitch.Editor

/-- The first argument with this name has this source code. -/
def HasArg (text : Node → String) (a : ActionDef) (name : String) (code : String) : Prop :=
  ∃ pre post n, a.args = pre ++ (some name, .code n) :: post ∧ (∀ e ∈ pre, e.1 ≠ some name) ∧ text n = code

/-- The action is shown on the page `page` of the pager in the variable `pager` only. -/
def OnPage (text : Node → String) (a : ActionDef) (pager page : String) : Prop :=
  '.' ∉ pager.toList ∧ pager ≠ "" ∧ page ≠ "" ∧ page ≠ "None" ∧ HasArg text a "id" page ∧
  ∃ m, '.' ∉ m.toList ∧ HasArg text a "enable_callback" (pager ++ "." ++ m)

/-- The action is enabled, if `current` gives the current page of each pager. -/
def EnabledWith (text : Node → String) (current : String → String) (a : ActionDef) : Prop :=
  ∀ pager page, OnPage text a pager page → current pager = page

/-- The argument shows something on the display: it is set to the display, and not for a preview or a
change of a value. -/
def ShowsOn (text : Node → String) (display : String) (e : Option String × ArgVal) : Prop :=
  ∃ name n, e = (some name, .code n) ∧ text n = display ∧ ¬"preview".toList <:+: name.toList ∧ ¬"change".toList <:+: name.toList

/-- There are pages of the pagers with which the `i`-th action with its `k`-th argument and the `j`-th with
its `l`-th argument use the display at the same time. -/
def Collide (text : Node → String) (actions : List ActionDef) (display : String) (i k j l : Nat) : Prop :=
  (i, k) ≠ (j, l) ∧ ∃ current a b e f, actions[i]? = some a ∧ actions[j]? = some b ∧
    a.args[k]? = some e ∧ b.args[l]? = some f ∧ ShowsOn text display e ∧ ShowsOn text display f ∧
    EnabledWith text current a ∧ EnabledWith text current b

end PySwitch.Spec.Editor
