/-!
Model of the extraction of all functions and classes of the library, which gives the definitions of actions, callbacks and classes the editor offers
(`web/htdocs/js/model/parser/FunctionExtractor.js:23-97`, `ClassNamesExtractor.js:22-82`, `web/htdocs/python/parser/misc/FunctionExtractor.py:11-54`, `ClassNameExtractor.py:11-32`, `ClassNamesExtractor.py:11-22`, `CollectCommentsTransformer.py:12-31`).

Simplified: sources are the trees of their statements, expressions are their text, and the comments of a parameter are given in the order in which they are visited. `none` is an exception.
-/
namespace PySwitch.Extractors

/-- The table of contents of the library. (`FunctionExtractor.js:25-35, 53-60`.) -/
inductive Toc where
  | file (name : List Char)
  | dir (name : List Char) (children : List Toc)

/-- `FunctionExtractor.js:32` `child.name`. -/
def Toc.name : Toc → List Char
  | .file n => n
  | .dir n _ => n

/-- `FunctionExtractor.js:31` `node.children || []`. -/
def Toc.children : Toc → List Toc
  | .file _ => []
  | .dir _ cs => cs

/-- `FunctionExtractor.js:30-35` `getChild`. -/
def getChild (node : Toc) (name : List Char) : Option Toc := node.children.find? (·.name == name)

/-- `FunctionExtractor.js:38-46`: the node to start at. The sub path is given by its parts. -/
def descend (node : Toc) : List (List Char) → Option Toc
  | [] => some node
  | token :: rest => match getChild node token with
    | none => none
    | some child => descend child rest

/-- `node.name.endsWith(".py")`. (`FunctionExtractor.js:54`.) -/
def endsWithPy (s : List Char) : Bool := ['.', 'p', 'y'].isSuffixOf s

/-- `FunctionExtractor.js:54`. -/
def scanned (name : List Char) : Bool := endsWithPy name && !['_', '_'].isPrefixOf name

mutual
/-- `FunctionExtractor.js:52-63` `crawl`. -/
def crawl (pre : List Char) : Toc → List (List Char)
  | .file name => if scanned name then [pre] else []
  | .dir _ cs => crawlAll pre cs
/-- `FunctionExtractor.js:60-62`. -/
def crawlAll (pre : List Char) : List Toc → List (List Char)
  | [] => []
  | c :: cs => crawl (pre ++ (if pre.isEmpty then [] else ['/']) ++ c.name) c ++ crawlAll pre cs
end

/-- `FunctionExtractor.js:37-64`, `ClassNamesExtractor.js:36-63`: the files to examine. For a missing sub path the result is empty (line 44). -/
def importPaths (toc : Toc) (sub : List (List Char)) (target : List Char) : List (List Char) :=
  match descend toc sub with
  | none => []
  | some node => crawl target node

/-- A parameter: its name, its default and the comments in it. (`FunctionExtractor.py:30-35`.) -/
structure Param where
  name : List Char
  default : Option (List Char)
  comments : List (List Char)

/-- A base of a class: a name, or any other expression like `a.B` or a call. (`ClassNameExtractor.py:27`.) -/
inductive Base where
  | name (n : List Char)
  | other

/-- Statements. Each function has its leading lines with their comments. Blocks are `if`, `for`, `try` and the like. (`FunctionExtractor.py:40-52`, `ClassNameExtractor.py:23-30`.) -/
inductive Statement where
  | function (name : List Char) (leading : List (Option (List Char))) (params : List Param) (body : List Statement)
  | class_ (name : List Char) (bases : List Base) (body : List Statement)
  | block (body : List Statement)
  | other

/-- A parameter of the result. (`FunctionExtractor.py:31-35`.) -/
structure ParamOut where
  name : List Char
  default : Option (List Char)
  comment : Option (List Char)
deriving DecidableEq, Repr

/-- A function of the result. (`FunctionExtractor.py:47-52`.) -/
structure FunctionOut where
  name : List Char
  parameters : List ParamOut
  comment : Option (List Char)
  importPath : List Char
deriving DecidableEq, Repr

/-- A class of the result. (`ClassNameExtractor.py:24-28`.) -/
structure ClassOut where
  name : List Char
  importPath : List Char
  extends_ : List (List Char)
deriving DecidableEq, Repr

/-- `comment.value.removeprefix('# ')`. (`CollectCommentsTransformer.py:18`.) -/
def removeMark : List Char → List Char
  | '#' :: ' ' :: rest => rest
  | s => s

/-- `CollectCommentsTransformer.py:16-23` `crawl`: adds a comment. -/
def addComment (acc : Option (List Char)) (comment : List Char) : Option (List Char) :=
  match acc with
  | none => some (removeMark comment)
  | some c => some (c ++ '\n' :: removeMark comment)

/-- `CollectCommentsTransformer.py:12-31` at level 0: the comments of the leading lines of a function. -/
def leadingComment (leading : List (Option (List Char))) : Option (List Char) :=
  leading.foldl (fun acc line => match line with | none => acc | some c => addComment acc c) none

/-- `FunctionExtractor.py:21-24, 34`: the comments of a parameter. -/
def paramComment (comments : List (List Char)) : Option (List Char) := comments.foldl addComment none

/-- `FunctionExtractor.py:27-37` `get_params`. -/
def getParams (ps : List Param) : List ParamOut := ps.map fun p => ⟨p.name, p.default, paramComment p.comments⟩

/-- `path.replace("/", ".")`. (`FunctionExtractor.py:51`.) -/
def replaceSlashes (path : List Char) : List Char := path.map fun c => if c == '/' then '.' else c

/-- `removesuffix(".py")`. (`FunctionExtractor.py:51`.) -/
def removePy (s : List Char) : List Char := if endsWithPy s then s.take (s.length - 3) else s

/-- `FunctionExtractor.py:51`, `ClassNamesExtractor.py:17`. -/
def importPath (path : List Char) : List Char := removePy (replaceSlashes path)

/-- `FunctionExtractor.py:40-52`: the functions of one file. -/
def functionsOf (path : List Char) : List Statement → List FunctionOut
  | [] => []
  | .function name leading params _ :: rest =>
    if name.head? == some '_' then functionsOf path rest
    else ⟨name, getParams params, leadingComment leading, importPath path⟩ :: functionsOf path rest
  | _ :: rest => functionsOf path rest

/-- `FunctionExtractor.py:11-54` `get`. -/
def getFunctions (read : List Char → Option (List Statement)) : List (List Char) → Option (List FunctionOut)
  | [] => some []
  | path :: rest => match read path with
    | none => none
    | some cst => match getFunctions read rest with
      | none => none
      | some r => some (functionsOf path cst ++ r)

/-- `ClassNameExtractor.py:27`. An expression other than a name raises an exception, at the latest when the result is encoded (`ClassNamesExtractor.js:78`). -/
def extendsOf : List Base → Option (List (List Char))
  | [] => some []
  | .other :: _ => none
  | .name n :: rest => (extendsOf rest).map (n :: ·)

mutual
/-- `ClassNameExtractor.py:19-28`: the visitor, which visits all statements. -/
def visit (path : List Char) (ret : List ClassOut) : Statement → Option (List ClassOut)
  | .class_ name bases body => match extendsOf bases with
    | none => none
    | some e => visitAll path (ret ++ [⟨name, path, e⟩]) body
  | .function _ _ _ body => visitAll path ret body
  | .block body => visitAll path ret body
  | .other => some ret
/-- The statements of a body, in order. (`ClassNameExtractor.py:30`.) -/
def visitAll (path : List Char) (ret : List ClassOut) : List Statement → Option (List ClassOut)
  | [] => some ret
  | s :: ss => match visit path ret s with
    | none => none
    | some r => visitAll path r ss
end

/-- `ClassNamesExtractor.py:11-22` `get`, with `ClassNameExtractor.py:11-32`. -/
def getClasses (read : List Char → Option (List Statement)) : List (List Char) → Option (List ClassOut)
  | [] => some []
  | path :: rest => match read path with
    | none => none
    | some cst => match visitAll (importPath path) [] cst with
      | none => none
      | some cs => match getClasses read rest with
        | none => none
        | some r => some (cs ++ r)

/-- `FunctionExtractor.js:23-67` `get`. -/
def extractFunctions (read : List Char → Option (List Statement)) (toc : Toc) (sub : List (List Char)) (target : List Char) : Option (List FunctionOut) :=
  getFunctions read (importPaths toc sub target)

/-- `ClassNamesExtractor.js:22-66` `get`. -/
def extractClasses (read : List Char → Option (List Statement)) (toc : Toc) (sub : List (List Char)) (target : List Char) : Option (List ClassOut) :=
  getClasses read (importPaths toc sub target)

end PySwitch.Extractors
