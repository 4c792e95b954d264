import Verif.Model.EditorInput
import Verif.Spec.Editor

/-!
How the inputs look in the source code, and what an edit of the actions of an input changes there.
-/

namespace PySwitch.Spec.Editor
open PySwitch.Editor

/-- The elements of a list in source code. -/
def elems : List Node → Nodes
  | [] => .nil
  | n :: ns => .cons {} n (elems ns)

/-- The elements of a dict in source code, with their keys. -/
def pairs : List (String × Node) → Nodes
  | [] => .nil
  | (k, v) :: r => .cons { key := some ("\"" ++ k ++ "\"") } v (pairs r)

/-- The arguments of a call in source code, with or without keyword. -/
def kwargs : List (Option String × Node) → Nodes
  | [] => .nil
  | (k, v) :: r => .cons { key := k } v (kwargs r)

/-- An input: the keys and values of its dict. -/
abbrev InputSrc := List (String × Node)

/-- The value of `Inputs`. -/
def source (ins : List InputSrc) : Node := .list (elems (ins.map fun e => .dict (pairs e)))

/-- The value for a key. -/
def valueOf (key : String) : InputSrc → Option Node
  | [] => none
  | (k, v) :: r => if k = key then some v else valueOf key r

/-- The input with a new value for a key. -/
def withValue (key : String) (v : Node) : InputSrc → InputSrc
  | [] => [(key, v)]
  | (k, o) :: r => if k = key then (k, v) :: r else (k, o) :: withValue key v r

/-- The input is the one for this port of the hardware. -/
def IsFor (assignment : String) (e : InputSrc) : Prop := valueOf "assignment" e = some (.name assignment)

instance (assignment : String) (e : InputSrc) : Decidable (IsFor assignment e) :=
  inferInstanceAs (Decidable (_ = _))

/-- The inputs with a new value for a key of the first input for this port. -/
def edited (assignment key : String) (v : Node) : List InputSrc → List InputSrc
  | [] => []
  | e :: r => if IsFor assignment e then withValue key v e :: r else e :: edited assignment key v r

/-- The file with another value of `Inputs`. -/
def withInputs (v : Node) (body : List Stmt) : List Stmt :=
  body.map fun
    | .assign ts old => .assign ts (if "Inputs" ∈ ts then v else old)
    | s => s

/-- The key of the (hold) actions of an input. -/
def keyOf (hold : Bool) : String := if hold then "actionsHold" else "actions"

/-- A page in source code: a dict with an id and, optionally, a color and a text. -/
def pageSrc (p : Node × Option Node × Option Node) : Node :=
  .dict (pairs ([("id", p.1)] ++ (p.2.1.map fun c => ("color", c)).toList ++ (p.2.2.map fun t => ("text", t)).toList))

/-- The pages of a pager are written down as a list of such pages. -/
def PagesOk (func : String) (args : List (Option String × Node)) : Prop :=
  func = "PagerAction" → ∀ v, (some "pages", v) ∈ args → ∃ ps : List (Node × Option Node × Option Node), v = .list (elems (ps.map pageSrc))

/-- An action in source code: a call, or a variable which the file sets to a call. -/
def IsAction (body : List Stmt) (n : Node) : Prop :=
  ∃ func args, PagesOk func args ∧ (n = .call func (kwargs args) ∨
    ∃ x ts, x ≠ "" ∧ n = .name x ∧ Stmt.assign ts (.call func (kwargs args)) ∈ body ∧ x ∈ ts)

/-- The editor shows the source code `n`, used in this file, as the action `a`. -/
def ShowsAs (limit : Nat) (body : List Stmt) (n : Node) (a : ActionDef) : Prop :=
  ∃ d, parse inputsArgNames body limit n = .ok d ∧ readAction d = .ok a

/-- A new action for the source code of a call, without variable. -/
def NewAs (n : Node) (a : ActionDef) : Prop :=
  ∃ func args, (func = "PagerAction" → ∀ e ∈ args, e.1 ≠ some "pages") ∧ (∀ e ∈ args, e.1 ≠ some "") ∧
    n = .call func (kwargs args) ∧ a = ⟨some func, none, args.map fun e => (e.1, .code e.2)⟩

/-- An action without empty names: of its variable, and of its arguments. -/
def ProperAction (a : ActionDef) : Prop := a.assign ≠ some "" ∧ ∀ e ∈ a.args, e.1 ≠ some ""

end PySwitch.Spec.Editor
