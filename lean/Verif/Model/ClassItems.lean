/-!
Model of the extraction of the functions and attributes of a class from its source, which gives the colours of the editor
(`web/htdocs/python/parser/misc/ClassItemExtractor.py:13-102`, `web/htdocs/js/model/parser/Parser.js:364-376`).

Simplified: the source is the tree of its statements; expressions are their text. Parameters and comments of the items are left out. `none` is an exception.
-/
namespace PySwitch.ClassItems

/-- The target of an assignment: a name, or something else like a tuple, for which line 87 or 88 raises an exception. (`ClassItemExtractor.py:87-88`.) -/
inductive Target where
  | name (n : List Char)
  | other
deriving DecidableEq, Repr

/-- Statements. Blocks are `if`, `for`, `try` and the like; `pass` stands for all other statements, including assignments with type annotation. (`ClassItemExtractor.py:43-98`.) -/
inductive Node where
  | classDef (name : List Char) (body : List Node)
  | functionDef (name : List Char) (body : List Node)
  | assign (target : Target) (more : List Target) (value : List Char)
  | block (body : List Node)
  | pass

/-- An extracted item; the value of a function is left out. (`ClassItemExtractor.py:71-78, 91-98`.) -/
inductive Item where
  | function (name : List Char)
  | attribute (name value : List Char)
deriving DecidableEq, Repr

/-- The arguments. (`ClassItemExtractor.py:7-14`.) -/
structure Query where
  className : List Char
  includeUnderscore : Bool
  functions : Bool
  attributes : Bool

/-- The visitor. (`ClassItemExtractor.py:44-48, 15`.) -/
structure State where
  depth : Option Nat
  stack : Nat
  ret : List Item

/-- `ClassItemExtractor.py:68, 88`. -/
def Query.skips (q : Query) (name : List Char) : Bool := !q.includeUnderscore && name.head? == some '_'

/-- `ClassItemExtractor.py:73`. -/
def Query.functionName (q : Query) (name : List Char) : List Char := q.className ++ (if name != "__init__".toList then '.' :: name else [])

/-- `ClassItemExtractor.py:93`. -/
def Query.attributeName (q : Query) (name : List Char) : List Char := q.className ++ '.' :: name

mutual

/-- `ClassItemExtractor.py:50-98`: the methods of the visitor for a statement. -/
def visit (q : Query) (s : State) : Node → Option State
  | .classDef name body =>
    if name != q.className then some ⟨s.depth, s.stack + 1 - 1, s.ret⟩
    else match visitAll q ⟨some (s.stack + 1), s.stack + 1, s.ret⟩ body with
      | none => none
      | some t => some ⟨t.depth, t.stack - 1, t.ret⟩
  | .functionDef name body =>
    if !q.functions then some s
    else if some s.stack != s.depth then some s
    else if q.skips name then some s
    else visitAll q ⟨s.depth, s.stack, s.ret ++ [.function (q.functionName name)]⟩ body
  | .assign target _ value =>
    if !q.attributes then some s
    else if some s.stack != s.depth then some s
    else match target with
      | .other => none
      | .name n => if q.skips n then some s else some ⟨s.depth, s.stack, s.ret ++ [.attribute (q.attributeName n) value]⟩
  | .block body => visitAll q s body
  | .pass => some s

/-- The statements of a body, in order. (`ClassItemExtractor.py:100`.) -/
def visitAll (q : Query) (s : State) : List Node → Option State
  | [] => some s
  | n :: ns => match visit q s n with
    | none => none
    | some t => visitAll q t ns

end

/-- `ClassItemExtractor.py:14-102` `get`. -/
def extract (q : Query) (module_ : List Node) : Option (List Item) := (visitAll q ⟨none, 0, []⟩ module_).map (·.ret)

/-- `Parser.js:364-376` `getAvailableColors`, without the buffer. -/
def getAvailableColors (source : List Node) : Option (List Item) := extract ⟨"Colors".toList, false, false, true⟩ source

end PySwitch.ClassItems
