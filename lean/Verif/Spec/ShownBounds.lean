import Verif.Model.Editor
/-! What Python makes of the bounds of a display element. -/

namespace PySwitch.Spec.ShownBounds
open PySwitch.Editor (Node Nodes Stmt Label)

/-- The file assigns the value to the name. -/
def Assigns (body : List Stmt) (name : String) (value : Node) : Prop := ∃ targets, .assign targets value ∈ body ∧ name ∈ targets

/-- The expression is a whole number: written as such, as a constant, or in a variable which is assigned once. The first number counts the variables which are defined by means of each other. -/
inductive Number (body : List Stmt) : Nat → Node → Int → Prop
  | literal (d n : Nat) : Number body d (.other (toString n)) n
  | negative (d n : Nat) : Number body d (.other ("-" ++ toString n)) (-(n : Int))
  | const (d : Nat) (e : Node) (n : Int) (h : Number body d e n) : Number body d (.call "const" (.cons {} e .nil)) n
  | var (d : Nat) (name : String) (e : Node) (n : Int) (ha : Assigns body name e) (hu : ∀ f, Assigns body name f → f = e) (h : Number body d e n) :
      Number body (d + 1) (.name name) n

/-- The source code of arguments by name. -/
def keywords : List (String × Node) → Nodes
  | [] => .nil
  | (k, e) :: named => .cons { key := some k } e (keywords named)

/-- The source code of arguments: first some by position, then some by name. -/
def arguments : List Node → List (String × Node) → Nodes
  | [], named => keywords named
  | e :: pos, named => .cons {} e (arguments pos named)

/-- The parameters of `DisplayBounds` (`content/lib/pyswitch/ui/ui.py:6`); all of them are 0 by default. -/
def parameters : List String := ["x", "y", "w", "h"]

/-- Python accepts the call. -/
def Legal (pos : List Node) (named : List (String × Node)) : Prop :=
  pos.length ≤ 4 ∧ (named.map (·.1)).Nodup ∧ ∀ k ∈ named.map (·.1), k ∈ parameters.drop pos.length

/-- The number of a parameter. -/
def Value (body : List Stmt) (d : Nat) (pos : List Node) (named : List (String × Node)) (parameter : String) (n : Int) : Prop :=
  (∃ (i : Nat) (e : Node), parameters[i]? = some parameter ∧ pos[i]? = some e ∧ Number body d e n) ∨
  (∃ e, (parameter, e) ∈ named ∧ Number body d e n) ∨
  ((∀ i : Nat, parameters[i]? = some parameter → pos[i]? = none) ∧ parameter ∉ named.map (·.1) ∧ n = 0)

/-- All arguments are numbers. -/
def Numbers (body : List Stmt) (d : Nat) (pos : List Node) (named : List (String × Node)) : Prop :=
  (∀ e ∈ pos, ∃ n, Number body d e n) ∧ ∀ p ∈ named, ∃ n, Number body d p.2 n

end PySwitch.Spec.ShownBounds
