import Verif.Model.Imports

/-!
Specification for the imports of a configuration file.
-/

namespace PySwitch.Spec.Imports
open PySwitch.Editor

/-- The imports of a statement on module level: module, name, and the name it gets here. -/
def importsOf : Stmt → List (String × String × String)
  | .imp m names => names.map fun n => (m, n.1, n.2)
  | _ => []

/-- The imports of a file on module level. -/
def imports (body : List Stmt) : List (String × String × String) := body.flatMap importsOf

/-- How often the file imports something under the name. -/
def timesImported (body : List Stmt) (x : String) : Nat :=
  ((imports body).filter fun e => e.2.2 == x).length

/-- The name can be imported. -/
def Importable (defs : List (String × String)) (x : String) : Prop := ∃ d ∈ defs, d.2 = x

/-- The file imports the name. -/
def Imports (body : List Stmt) (x : String) : Prop := ∃ e ∈ imports body, e.2.2 = x

def isImport : Stmt → Bool
  | .imp _ _ => true
  | .star _ => true
  | _ => false

/-- The name occurs in a statement which is no import. -/
def Uses (refs : Stmt → List String) (body : List Stmt) (x : String) : Prop :=
  ∃ s ∈ body, isImport s = false ∧ x ∈ refs s

/-- No imports inside of functions. -/
def NoLocal (body : List Stmt) : Prop := ∀ is code, Stmt.block is code ∈ body → is = []

/-- No statement imports something twice under the same name. -/
def NoneTwice (body : List Stmt) : Prop :=
  ∀ m names, Stmt.imp m names ∈ body → (names.map (·.2)).Nodup

/-- A statement which is no `from … import n`, without the imports inside of it. -/
def rest : Stmt → Option Stmt
  | .imp _ _ => none
  | .block _ code => some (.block [] code)
  | s => some s

/-- Names are imported before they are used. -/
def ImportsFirst (refs : Stmt → List String) (body : List Stmt) : Prop :=
  ∀ pre s post, body = pre ++ s :: post → isImport s = false → ∀ x ∈ refs s, ¬Imports post x

end PySwitch.Spec.Imports
