import Verif.Model.ClassItems
/-!
The attributes of a class, and the sources for which they are well defined.
-/
namespace PySwitch.ClassItems.Spec
open PySwitch.ClassItems

/-- A name is public if it does not begin with an underscore. -/
def Public (name : List Char) : Bool := name.head? != some '_'

mutual
/-- The public attributes a statement of the body of a class defines: those of assignments, also in blocks, but not those in functions and inner classes. -/
def attributesOf : Node → List (List Char × List Char)
  | .assign (.name n) _ v => if Public n then [(n, v)] else []
  | .block body => attributesOfAll body
  | _ => []
def attributesOfAll : List Node → List (List Char × List Char)
  | [] => []
  | n :: ns => attributesOf n ++ attributesOfAll ns
end

mutual
/-- The statement does not define a class of the name. -/
def without (cls : List Char) : Node → Bool
  | .classDef name _ => name != cls
  | .block body => withoutAll cls body
  | _ => true
def withoutAll (cls : List Char) : List Node → Bool
  | [] => true
  | n :: ns => without cls n && withoutAll cls ns
end

mutual
/-- All assignments of the body have one name on the left. -/
def simple : Node → Bool
  | .assign (.name _) more _ => more.isEmpty
  | .assign .other _ _ => false
  | .block body => simpleAll body
  | _ => true
def simpleAll : List Node → Bool
  | [] => true
  | n :: ns => simple n && simpleAll ns
end

mutual
/-- No function is defined by the statement. -/
def noFunction : Node → Bool
  | .functionDef _ _ => false
  | .block body => noFunctionAll body
  | _ => true
def noFunctionAll : List Node → Bool
  | [] => true
  | n :: ns => noFunction n && noFunctionAll ns
end

mutual
/-- The functions of the body have no local functions, and no local classes of the name. -/
def flat (cls : List Char) : Node → Bool
  | .functionDef _ body => noFunctionAll body && withoutAll cls body
  | .block body => flatAll cls body
  | _ => true
def flatAll (cls : List Char) : List Node → Bool
  | [] => true
  | n :: ns => flat cls n && flatAll cls ns
end

mutual
/-- The methods a statement of the body of a class defines, also in blocks. -/
def methodsOf : Node → List (List Char)
  | .functionDef name _ => [name]
  | .block body => methodsOfAll body
  | _ => []
def methodsOfAll : List Node → List (List Char)
  | [] => []
  | n :: ns => methodsOf n ++ methodsOfAll ns
end

/-- How a method is called: the constructor with the name of the class. -/
def callName (cls name : List Char) : List Char := if name = "__init__".toList then cls else cls ++ ['.'] ++ name

end PySwitch.ClassItems.Spec
