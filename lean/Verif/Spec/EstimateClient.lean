import Verif.Model.EstimateClient
import Verif.Spec.DeviceType
/-! The clients which a file of inputs uses. Files are lists of lines, as `fileOf` of `Spec/DeviceType.lean` writes them. -/

namespace PySwitch.Spec.EstimateClient
open PySwitch.EstimateClient

/-- The line imports something from a module of the client. -/
def Imports (line client : Text) : Prop := ∃ rest names, line = "from pyswitch.clients.".toList ++ client ++ rest ++ " import ".toList ++ names ∧ (rest = [] ∨ rest.head? = some '.')

/-- The line has the modules of the client in it, be it in a comment. -/
def Mentions (line client : Text) : Prop := "pyswitch.clients.".toList ++ client <:+: line

/-- How many lines import from the client. -/
inductive Count (client : Text) : List Text → Nat → Prop
  | nil : Count client [] 0
  | yes (l : Text) (ls : List Text) (n : Nat) (h : Imports l client) (r : Count client ls n) : Count client (l :: ls) (n + 1)
  | no (l : Text) (ls : List Text) (n : Nat) (h : ¬ Imports l client) (r : Count client ls n) : Count client (l :: ls) n

end PySwitch.Spec.EstimateClient
