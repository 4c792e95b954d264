import Verif.Model.Editor
/-!
Specification for the kinds of proxies (C209): where variables are used in an expression, and which objects are in a tree.
-/
namespace PySwitch.Spec.ProxyNames
open PySwitch.Editor

mutual
/-- The variable is used in the expression. -/
def Uses (x : String) : Node → Prop
  | .name id => id = x
  | .call _ args => UsesIn x args
  | .dict elements => UsesIn x elements
  | .list items => UsesIn x items
  | .other _ => False

/-- The variable is used in one of the expressions. -/
def UsesIn (x : String) : Nodes → Prop
  | .nil => False
  | .cons _ n rest => Uses x n ∨ UsesIn x rest
end

/-- The variable an object of the tree is assigned to. -/
def assignOf : Data → Option String
  | .call _ _ a => a
  | .dict _ a => a
  | .val _ a => a
  | _ => none

mutual
/-- The objects of a tree, in the order in which they are written. -/
def objects : Data → List Data
  | .code _ => []
  | .list items => objectsIn items
  | .call name args a => .call name args a :: objectsIn args
  | .dict args a => .dict args a :: objectsIn args
  | .val value a => .val value a :: objects value

/-- The objects of the entries. -/
def objectsIn : Entries → List Data
  | .nil => []
  | .cons _ d rest => objects d ++ objectsIn rest
end

/-- The variable is in the tree. -/
def Occurs (x : String) (d : Data) : Prop := ∃ n ∈ objects d, assignOf n = some x

end PySwitch.Spec.ProxyNames
