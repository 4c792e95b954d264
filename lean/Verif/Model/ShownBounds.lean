import Verif.Model.Editor
import Verif.Model.Properties
/-!
Model of how the display editor reads the bounds of an element (`web/htdocs/js/ui/editors/display/DisplayNode.js:227-245`,
`web/htdocs/js/model/parser/Resolver.js`) from the data of the parser (`Model/Editor.lean`).

Simplified: lists in place of a number count as no number.
-/
namespace PySwitch.ShownBounds
open PySwitch.Editor (Node Nodes Data Entries Stmt parse splashesArgNames)
open PySwitch.Properties (Text parseInt)

/-- The source code of the data, which is only kept for names and simple expressions. (`CodeExtractor.py:56-57, 122-126`.) -/
def codeText : Node → Text
  | .name id => id.toList
  | .other code => code.toList
  | _ => []

mutual
/-- `Resolver.js:9-21` `resolve`; `none` if the result is an object or undefined, which is no number. -/
def resolve : Data → Option Text
  | .code n => some (codeText n)
  | .val value _ => resolve value
  | .call name args _ => if name = "const" then resolveFirst args else none
  | _ => none

/-- `Resolver.js:16`: the first argument, which is an object with a value. -/
def resolveFirst : Entries → Option Text
  | .nil => none
  | .cons _ value _ => resolve value
end

/-- `web/htdocs/js/misc/Tools.js:143-150` `getArgument`. -/
def getArgument (name : String) : Entries → Option Data
  | .nil => none
  | .cons n value rest => if n = some name then some value else getArgument name rest

/-- `DisplayNode.js:233-237` `getDim`; `none` is `NaN`. -/
def getDim (args : Entries) (name : String) : Option Int :=
  match getArgument name args with
  | none => some 0
  | some d => (resolve d).bind parseInt

/-- The bounds. (`DisplayNode.js:239-244`.) -/
structure Bounds where
  x : Option Int
  y : Option Int
  width : Option Int
  height : Option Int
deriving DecidableEq, Repr

/-- `DisplayNode.js:227-245` `getModelBounds`; `none` is an exception. -/
def getModelBounds : Data → Option Bounds
  | .call _ args _ => some ⟨getDim args "x", getDim args "y", getDim args "w", getDim args "h"⟩
  | .dict args _ => some ⟨getDim args "x", getDim args "y", getDim args "w", getDim args "h"⟩
  | _ => none

/-- The bounds which are shown for the source code of the argument `bounds`. (`CodeExtractor.py:59-92`, `DisplayNode.js:227-245`.) -/
def shownBounds (limit : Nat) (body : List Stmt) (node : Node) : Option Bounds :=
  match parse splashesArgNames body limit node with
  | .ok d => getModelBounds d
  | .error _ => none

end PySwitch.ShownBounds
