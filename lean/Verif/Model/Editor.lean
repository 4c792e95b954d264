/-!
Model of the configuration editor's parser (`web/htdocs/python/parser`): it turns the source code
of `inputs.py` / `display.py` into a tree for the user interface (`CodeExtractor.py`), and an
edited tree back into source code (`CodeGenerator.py` and the transformers).

Source code is modelled by what the library `libcst` makes of it. Whitespace, comments and
parentheses are left out. A string holding source code (`parse_expression`, `code_for_node`) is
modelled by the node it stands for, so the library's own parsing and printing, which are lossless,
do not appear. The `client` entries which the extractors add to calls are left out, nothing reads
them when code is generated.
-/

namespace PySwitch.Editor

/-- What stands in front of the value of an argument, a dict element or a list element: the
keyword, resp. the source text of the key including its quotes, and the stars of `*args`,
`**kwargs` (`libcst.Arg`, `libcst.DictElement`, `libcst.Element`, `libcst.StarredElement`).
(`web/htdocs/python/parser/misc/CodeExtractor.py:59-118`.) -/
structure Label where
  key : Option String := none
  star : String := ""
deriving DecidableEq, Repr

mutual
/-- The expressions `CodeExtractor._parse_node` tells apart
(`web/htdocs/python/parser/misc/CodeExtractor.py:42-54`): everything else is `other`. -/
inductive Node where
  | name (id : String)
  | call (func : String) (args : Nodes)
  | dict (elements : Nodes)
  | list (items : Nodes)
  | other (code : String)

/-- Lists of labelled expressions. (`web/htdocs/python/parser/misc/CodeExtractor.py:59-118`.) -/
inductive Nodes where
  | nil
  | cons (label : Label) (node : Node) (rest : Nodes)
end

deriving instance DecidableEq for Node, Nodes

mutual
/-- The tree the user interface works with, as delivered by `inputs()` and `splashes()` and
accepted by `set_inputs()` and `set_splashes()`
(`web/htdocs/python/parser/misc/CodeExtractor.py:42-137`,
`web/htdocs/python/parser/misc/CodeGenerator.py:19-37`). An `assign` which is missing, `None` or
empty is `none`. -/
inductive Data where
  /-- a string with source code -/
  | code (n : Node)
  | list (items : Entries)
  /-- `{ name, arguments, assign }` -/
  | call (name : String) (args : Entries) (assign : Option String)
  /-- `{ arguments, assign }` -/
  | dict (args : Entries) (assign : Option String)
  /-- `{ value, assign }` -/
  | val (value : Data) (assign : Option String)

/-- Lists of items, or of arguments `{ name, value }`. (`web/htdocs/python/parser/misc/CodeExtractor.py:59-118`.) -/
inductive Entries where
  | nil
  | cons (name : Option String) (value : Data) (rest : Entries)
end

deriving instance DecidableEq for Data, Entries

/-- A statement on module level. Only the first statement of a line is regarded, as everywhere in
the parser (`statement.body[0]`). Targets which are no names (`a.b = …`, `a[0] = …`, which never
match) count as `simple`; tuples as targets, which make the parser raise, are not modelled.
* `imp`: `from module import n as b, …`, with the pairs (`n`, `b`), `b = n` without `as`. Also
  `import n as b, …` with the module `""`. Names with dots after `import` are not modelled.
* `star`: `from module import *`
* `simple`: any other simple statement line
* `block`: a compound statement (`def`, `class`, `if`, …), with the imports inside and the rest of
  its code. As far as imports are regarded (`Model/Imports`), it is a function.
(`web/htdocs/python/parser/misc/AssignmentExtractor.py:10-27`.) -/
inductive Stmt where
  | assign (targets : List String) (value : Node)
  | imp (module : String) (names : List (String × String))
  | star (module : String)
  | simple (code : String)
  | block (imports : List (String × List (String × String))) (code : String)
deriving DecidableEq

/-- `isinstance(statement, libcst.SimpleStatementLine)`. (`web/htdocs/python/parser/misc/AssignmentExtractor.py:10-27`.) -/
def Stmt.isSimple : Stmt → Bool
  | .block _ _ => false
  | _ => true

/-- Is there a target with the name? `web/htdocs/python/parser/misc/ReplaceAssignmentTransformer.py:14-15`. -/
def Stmt.assigns (x : String) : Stmt → Bool
  | .assign targets _ => targets.contains x
  | _ => false

/-- The exceptions of the parser. (`web/htdocs/python/parser/misc/CodeExtractor.py:42-147`, `CodeGenerator.py:19-143`.) -/
inductive Err where
  /-- `RecursionError`: a name is defined by means of itself -/
  | recursion
  /-- "You can only omit the value field when no parser is connected" -/
  | noValue
  /-- `KeyError`: an element of a dict has no name -/
  | noName
  /-- `AttributeError`: the key of an element of a dict cannot be read -/
  | noKey
deriving DecidableEq, Repr

/-! ### Reading -/

/-- `web/htdocs/python/parser/misc/CodeExtractor.py:140-147` and
`web/htdocs/python/parser/misc/AssignmentExtractor.py:10-27`: the value of the first assignment to
the name on module level. -/
def lookup (body : List Stmt) (x : String) : Option Node :=
  body.findSome? fun
    | .assign targets value => if targets.contains x then some value else none
    | _ => none

/-- `str.strip('"')`. (Used in `web/htdocs/python/parser/misc/CodeExtractor.py:94-108`.) -/
def stripQuotes (s : String) : String :=
  String.ofList (((s.toList.dropWhile (· == '"')).reverse.dropWhile (· == '"')).reverse)

/-- `web/htdocs/python/parser/misc/CodeExtractor.py:128-137`: the parsed value of a name gets the
name as `assign`, an `assign` it already has is replaced. -/
def assigned (x : String) : Data → Data
  | .call name args _ => .call name args (some x)
  | .dict args _ => .dict args (some x)
  | .val value _ => .val value (some x)
  | d => .val d (some x)

mutual
/-- `web/htdocs/python/parser/misc/CodeExtractor.py:42-137`: `_parse_node` and the functions it
calls. `argNames` is `get_arg_names`, `resolve` parses the value assigned to a name. -/
def parseWith (argNames : String → List String) (resolve : String → Option (Except Err Data)) :
    Node → Except Err Data
  | .name id =>
    match resolve id with
    | none => .ok (.code (.name id))
    | some (.ok d) => .ok (assigned id d)
    | some (.error e) => .error e
  | .call func args =>
    match parseArgs argNames resolve (argNames func) args with
    | .ok args => .ok (.call func args none)
    | .error e => .error e
  | .dict elements =>
    match parseElements argNames resolve elements with
    | .ok args => .ok (.dict args none)
    | .error e => .error e
  | .list items =>
    match parseItems argNames resolve items with
    | .ok items => .ok (.list items)
    | .error e => .error e
  | .other code => .ok (.code (.other code))

/-- `web/htdocs/python/parser/misc/CodeExtractor.py:59-90`, the loop over the arguments: the
arguments without keyword get the names `free`, as long as there are some. The stars are
dropped. -/
def parseArgs (argNames : String → List String) (resolve : String → Option (Except Err Data)) :
    List String → Nodes → Except Err Entries
  | _, .nil => .ok .nil
  | free, .cons label node rest =>
    match parseWith argNames resolve node with
    | .error e => .error e
    | .ok d =>
      match label.key with
      | some keyword =>
        match parseArgs argNames resolve free rest with
        | .ok r => .ok (.cons (some keyword) d r)
        | .error e => .error e
      | none =>
        match parseArgs argNames resolve free.tail rest with
        | .ok r => .ok (.cons free.head? d r)
        | .error e => .error e

/-- `web/htdocs/python/parser/misc/CodeExtractor.py:94-108`. A key which has no text (`**other`)
raises. -/
def parseElements (argNames : String → List String) (resolve : String → Option (Except Err Data)) :
    Nodes → Except Err Entries
  | .nil => .ok .nil
  | .cons label node rest =>
    match label.key with
    | none => .error .noKey
    | some key =>
      match parseWith argNames resolve node with
      | .error e => .error e
      | .ok d =>
        match parseElements argNames resolve rest with
        | .ok r => .ok (.cons (some (stripQuotes key)) d r)
        | .error e => .error e

/-- `web/htdocs/python/parser/misc/CodeExtractor.py:110-118`. The stars are dropped. -/
def parseItems (argNames : String → List String) (resolve : String → Option (Except Err Data)) :
    Nodes → Except Err Entries
  | .nil => .ok .nil
  | .cons _ node rest =>
    match parseWith argNames resolve node with
    | .error e => .error e
    | .ok d =>
      match parseItems argNames resolve rest with
      | .ok r => .ok (.cons none d r)
      | .error e => .error e
end

/-- `_parse_node` with a file (`web/htdocs/python/parser/misc/CodeExtractor.py:42-147`). `limit`
bounds how many names can be defined by means of each other, as Python's recursion limit does. -/
def parse (argNames : String → List String) (body : List Stmt) : Nat → Node → Except Err Data
  | 0, n => parseWith argNames (fun x => (lookup body x).map fun _ => .error .recursion) n
  | limit + 1, n =>
    parseWith argNames (fun x => (lookup body x).map (parse argNames body limit)) n

/-- `web/htdocs/python/parser/misc/CodeExtractor.py:20-40`: `get`. The name of the top assignment
is put into the data if this is a dict. -/
def getTree (argNames : String → List String) (limit : Nat) (body : List Stmt) (top : String) :
    Except Err (Option Data) :=
  match lookup body top with
  | none => .ok none
  | some n =>
    match parse argNames body limit n with
    | .error e => .error e
    | .ok (.call name args _) => .ok (some (.call name args (some top)))
    | .ok (.dict args _) => .ok (some (.dict args (some top)))
    | .ok (.val value _) => .ok (some (.val value (some top)))
    | .ok d => .ok (some d)

/-- The names for arguments without keyword in `inputs.py`: none
(`web/htdocs/python/parser/misc/CodeExtractor.py:11-12`). -/
def inputsArgNames : String → List String := fun _ => []

/-- The names for arguments without keyword in `display.py`
(`web/htdocs/python/parser/SplashesExtractor.py:11-13`). -/
def splashesArgNames (type : String) : List String :=
  if type = "DisplayBounds" then ["x", "y", "w", "h"] else []

/-- `web/htdocs/python/parser/PySwitchParser.py:58-64`: `inputs`. -/
def inputs (limit : Nat) (body : List Stmt) : Except Err (Option Data) :=
  getTree inputsArgNames limit body "Inputs"

/-- `web/htdocs/python/parser/PySwitchParser.py:104-110`: `splashes`. -/
def splashes (limit : Nat) (body : List Stmt) : Except Err (Option Data) :=
  getTree splashesArgNames limit body "Splashes"

/-! ### Writing -/

/-- `web/htdocs/python/parser/misc/ReplaceAssignmentTransformer.py:10-21`: every assignment on
module level with the name among its targets gets the value. -/
def replace (x : String) (value : Node) (body : List Stmt) : List Stmt :=
  body.map fun
    | .assign targets old => if targets.contains x then .assign targets value else .assign targets old
    | s => s

/-- `web/htdocs/python/parser/misc/AddAssignmentTransformer.py:15-48`: a new assignment. With
`before` it is put in front of every assignment to that name. Otherwise it is put behind the last
statement, when the number of simple statement lines which have been passed equals the number of
statements: so only if there are no compound statements. -/
def add (x : String) (value : Node) (before : Option String) (body : List Stmt) : List Stmt :=
  match before with
  | some b => body.flatMap fun s => if s.assigns b then [.assign [x] value, s] else [s]
  | none => if body.all Stmt.isSimple then body ++ [.assign [x] value] else body

/-- `web/htdocs/python/parser/PySwitchParser.py:133-147`: `set_assignment`. -/
def setAssignment (x : String) (value : Node) (before : Option String) (body : List Stmt) :
    List Stmt :=
  if body.any (Stmt.assigns x) then replace x value body else add x value before body

/-- Python's truth value of an entry `value` (`data["value"]`,
`web/htdocs/python/parser/misc/CodeGenerator.py:33`): an empty list is false. -/
def Data.truthy : Data → Bool
  | .list .nil => false
  | _ => true

/-- `web/htdocs/python/parser/misc/CodeGenerator.py:112-127`: `_resolve_assign`, with a parser. -/
def resolveAssign (before : String) (assign : Option String) (node : Node) (body : List Stmt) :
    Node × List Stmt :=
  match assign with
  | none => (node, body)
  | some x => (.name x, setAssignment x node (some before) body)

mutual
/-- `web/htdocs/python/parser/misc/CodeGenerator.py:19-37, 67-143`: `_generate`, for a generator
which is connected to the parser. The second component is the file after the assignments which
have been set on the way. When an exception is raised, the changes up to there remain in the
parser's memory; here they are lost. -/
def generate (before : String) : Data → List Stmt → Except Err (Node × List Stmt)
  | .code n, body => .ok (n, body)
  | .list items, body =>
    match generateItems before items body with
    | .ok (nodes, body) => .ok (.list nodes, body)
    | .error e => .error e
  | .call name args assign, body =>
    match generateArgs before args body with
    | .ok (nodes, body) => .ok (resolveAssign before assign (.call name nodes) body)
    | .error e => .error e
  | .dict args assign, body =>
    match generateElements before args body with
    | .ok (nodes, body) => .ok (resolveAssign before assign (.dict nodes) body)
    | .error e => .error e
  | .val value none, body => generate before value body
  | .val value (some x), body =>
    if value.truthy then
      match generate before value body with
      | .ok (node, body) => .ok (resolveAssign before (some x) node body)
      | .error e => .error e
    else .error .noValue

/-- `web/htdocs/python/parser/misc/CodeGenerator.py:43-64`: the elements of a list. -/
def generateItems (before : String) : Entries → List Stmt → Except Err (Nodes × List Stmt)
  | .nil, body => .ok (.nil, body)
  | .cons _ value rest, body =>
    match generate before value body with
    | .error e => .error e
    | .ok (node, body) =>
      match generateItems before rest body with
      | .ok (nodes, body) => .ok (.cons {} node nodes, body)
      | .error e => .error e

/-- `web/htdocs/python/parser/misc/CodeGenerator.py:89-109`: the arguments of a call. -/
def generateArgs (before : String) : Entries → List Stmt → Except Err (Nodes × List Stmt)
  | .nil, body => .ok (.nil, body)
  | .cons name value rest, body =>
    match generate before value body with
    | .error e => .error e
    | .ok (node, body) =>
      match generateArgs before rest body with
      | .ok (nodes, body) =>
        .ok (.cons { key := name.bind fun n => if n = "" then none else some n } node nodes, body)
      | .error e => .error e

/-- `web/htdocs/python/parser/misc/CodeGenerator.py:67-85`: the elements of a dict. The key is the
name in double quotes. -/
def generateElements (before : String) : Entries → List Stmt → Except Err (Nodes × List Stmt)
  | .nil, body => .ok (.nil, body)
  | .cons none _ _, _ => .error .noName
  | .cons (some name) value rest, body =>
    match generate before value body with
    | .error e => .error e
    | .ok (node, body) =>
      match generateElements before rest body with
      | .ok (nodes, body) => .ok (.cons { key := some ("\"" ++ name ++ "\"") } node nodes, body)
      | .error e => .error e
end

/-- `web/htdocs/python/parser/PySwitchParser.py:71-74`: the `assign` of the top node is removed. -/
def clearAssign : Data → Data
  | .call name args _ => .call name args none
  | .dict args _ => .dict args none
  | .val value _ => .val value none
  | d => d

/-- `web/htdocs/python/parser/PySwitchParser.py:66-83` and `:108-125`: `set_inputs` with `top` =
"Inputs", `set_splashes` with `top` = "Splashes". -/
def setTop (top : String) (d : Data) (body : List Stmt) : Except Err (List Stmt) :=
  match generate top (clearAssign d) body with
  | .error e => .error e
  | .ok (node, body) => .ok (setAssignment top node none body)

/-- `web/htdocs/python/parser/PySwitchParser.py:66-83`: `set_inputs`. -/
def setInputs (d : Data) (body : List Stmt) : Except Err (List Stmt) := setTop "Inputs" d body

/-- `web/htdocs/python/parser/PySwitchParser.py:112-129`: `set_splashes`. -/
def setSplashes (d : Data) (body : List Stmt) : Except Err (List Stmt) := setTop "Splashes" d body

end PySwitch.Editor
