import Verif.Model.LabelCallback
/-!
What a label does, in terms of its code.
-/
namespace PySwitch.LabelCallback.Spec
open PySwitch.Properties (Text lit)

/-- Does the label have a callback? Without the argument, or with `None`, it has none. (`content/lib/pyswitch/ui/elements.py`, `DisplayLabel`.) -/
def hasNone (v : Option Val) : Prop := v = none ∨ v = some (.code (lit "None"))

/-- The label has this callback. -/
def has (v : Option Val) (name : Text) : Prop := ∃ args, v = some (.call name args)

end PySwitch.LabelCallback.Spec
