import Verif.Model.Editor
import Verif.Model.Checks
/-!
Model of how the configuration editor finds out which kind of action a call like `_pager.proxy(…)` is
(`web/htdocs/js/model/parser/ParserInputAction.js:28-41`): it searches the tree of the inputs for the variable
(`web/htdocs/js/model/parser/Parser.js:100-121`). The tree is that of `Model/Editor.lean`.
-/
namespace PySwitch.ProxyNames
open PySwitch.Editor

mutual
/-- `Parser.js:103-118` `crawl`: source code (a string) has no nodes; an object which has not got the name is searched in its value, or else in
its arguments. -/
def crawl (x : String) : Data → Option Data
  | .code _ => none
  | .list items => crawlAll x items
  | .call name args a => if a = some x then some (.call name args a) else crawlAll x args
  | .dict args a => if a = some x then some (.dict args a) else crawlAll x args
  | .val value a => if a = some x then some (.val value a) else crawl x value

/-- `Parser.js:104-109`: the loop over a list. Arguments are objects with a value, and without a name of a variable. -/
def crawlAll (x : String) : Entries → Option Data
  | .nil => none
  | .cons _ d rest =>
    match crawl x d with
    | some r => some r
    | none => crawlAll x rest
end

/-- The name of a node, as text. Nodes which are no calls have none. (`ParserInputAction.js:40`, JavaScript.) -/
def nodeName : Data → String
  | .call name _ _ => name
  | _ => "undefined"

/-- `ParserInputAction.js:28-41` `#determineDefinitionName`. -/
def definitionName (tree : Data) (name : String) : Option String :=
  match Checks.splitDot name.toList with
  | [a, f] => (crawl (String.ofList a) tree).map fun n => nodeName n ++ "." ++ String.ofList f
  | _ => none

end PySwitch.ProxyNames
