import Verif.Model.KeyNames
/-!
Source code for keys and texts.
-/
namespace PySwitch.KeyNames.Spec
open PySwitch.Properties (Text lit)

/-- Names of keys: capital letters, digits and underscores (as all names of the library for keys). -/
def Key (n : Text) : Prop := n ≠ [] ∧ ∀ c ∈ n, c.isUpper ∨ c.isDigit ∨ c = '_'

/-- Texts with a comma and a blank between them. -/
def commas : List Text → Text
  | [] => []
  | [t] => t
  | t :: u :: ts => t ++ lit ", " ++ commas (u :: ts)

/-- The source code for keys: one key, a list of keys, or a tuple of keys. -/
inductive Code : List Text → Text → Prop where
  | one (k : Text) : Code [k] (lit "Keycode." ++ k)
  | list (ks : List Text) : Code ks (lit "[" ++ commas (ks.map (lit "Keycode." ++ ·)) ++ lit "]")
  | tuple (ks : List Text) : Code ks (lit "(" ++ commas (ks.map (lit "Keycode." ++ ·)) ++ lit ")")

end PySwitch.KeyNames.Spec
