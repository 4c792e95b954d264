import Verif.Model.Editor

/-!
Model of how the configuration editor reads and changes the actions of an input
(`web/htdocs/js/model/parser/ParserInput.js`, `ParserInputAction.js`, `ParserTreeElement.js`, `Parser.js`), on
top of the tree of `Model/Editor.lean`.

Left out: the user interface (dialogs, drag and drop), ids of actions, and the `client` entries. A string
with source code is modelled by the node it stands for, as in `Model/Editor.lean`.
-/

namespace PySwitch.Editor

/-- What goes wrong: an exception of the parser, a JavaScript `TypeError` (something is no array, or not iterable), an
action or a page which cannot be saved (`CodeGenerator.py:97`: the name is no string, `:139-143`: a value is missing), or
an input which is not found (`ParserInput.js:21-27`). -/
inductive EditErr where
  | parser (e : Err)
  | type
  | invalid
  | unknownInput
deriving DecidableEq, Repr

/-! ### Source code of a part of the tree -/

mutual
/-- `web/htdocs/python/parser/PySwitchParser.py:51-56` `code_for_data_node` and
`web/htdocs/python/parser/misc/CodeGenerator.py:19-143`: `_generate` of a generator which is not connected to the parser.
Variables are used by name and not set. -/
def codeOf : Data → Except Err Node
  | .code n => .ok n
  | .list items =>
    match codeOfItems items with
    | .ok nodes => .ok (.list nodes)
    | .error e => .error e
  | .call name args assign =>
    match codeOfArgs args with
    | .ok nodes => .ok ((assign.map Node.name).getD (.call name nodes))
    | .error e => .error e
  | .dict args assign =>
    match codeOfElements args with
    | .ok nodes => .ok ((assign.map Node.name).getD (.dict nodes))
    | .error e => .error e
  | .val value none => codeOf value
  | .val value (some x) =>
    if value.truthy then
      match codeOf value with
      | .ok _ => .ok (.name x)
      | .error e => .error e
    else .ok (.name x)

/-- `web/htdocs/python/parser/misc/CodeGenerator.py:43-64`. -/
def codeOfItems : Entries → Except Err Nodes
  | .nil => .ok .nil
  | .cons _ value rest =>
    match codeOf value with
    | .error e => .error e
    | .ok node =>
      match codeOfItems rest with
      | .ok nodes => .ok (.cons {} node nodes)
      | .error e => .error e

/-- `web/htdocs/python/parser/misc/CodeGenerator.py:89-109`. -/
def codeOfArgs : Entries → Except Err Nodes
  | .nil => .ok .nil
  | .cons name value rest =>
    match codeOf value with
    | .error e => .error e
    | .ok node =>
      match codeOfArgs rest with
      | .ok nodes => .ok (.cons { key := name.bind fun n => if n = "" then none else some n } node nodes)
      | .error e => .error e

/-- `web/htdocs/python/parser/misc/CodeGenerator.py:67-85`. -/
def codeOfElements : Entries → Except Err Nodes
  | .nil => .ok .nil
  | .cons none _ _ => .error .noName
  | .cons (some name) value rest =>
    match codeOf value with
    | .error e => .error e
    | .ok node =>
      match codeOfElements rest with
      | .ok nodes => .ok (.cons { key := some ("\"" ++ name ++ "\"") } node nodes)
      | .error e => .error e
end

/-! ### Actions -/

/-- A page as the user interface gets it (`ParserInputAction.js:121-137`); a missing entry is `none`. -/
structure PageDef where
  id : Option Data
  color : Option Data := none
  text : Option Data := none
deriving DecidableEq

/-- The value of an argument: source code, or the pages of a pager. (`ParserInputAction.js:79-101`.) -/
inductive ArgVal where
  | code (n : Node)
  | pages (l : List PageDef)
deriving DecidableEq

/-- An action as the user interface gets it and as it can be set (`ParserInputAction.js:13-23, 79-101`,
`ParserInput.js:113-136`). A missing name or `assign` is `none`. -/
structure ActionDef where
  name : Option String
  assign : Option String := none
  args : List (Option String × ArgVal) := []
deriving DecidableEq

/-- `for (const arg of args) if (arg.name == name) return arg` (`ParserTreeElement.js:33-40`, `Parser.js:194-201`). -/
def findEntry (name : String) : Entries → Option Data
  | .nil => none
  | .cons n value rest => if n = some name then some value else findEntry name rest

/-- `ParserTreeElement.js:45-62`: the first argument with the name is replaced, or a new one is appended. -/
def putEntry (name : String) (value : Data) : Entries → Entries
  | .nil => .cons (some name) value .nil
  | .cons n old rest => if n = some name then .cons n value rest else .cons n old (putEntry name value rest)

/-- `ParserInputAction.js:121-137`: one page. Only calls and dicts have arguments. -/
def decodePage : Data → Except EditErr PageDef
  | .call _ args _ => .ok ⟨findEntry "id" args, findEntry "color" args, findEntry "text" args⟩
  | .dict args _ => .ok ⟨findEntry "id" args, findEntry "color" args, findEntry "text" args⟩
  | _ => .error .type

/-- `ParserInputAction.js:121-137`: all pages. -/
def decodePages : Entries → Except EditErr (List PageDef)
  | .nil => .ok []
  | .cons _ value rest =>
    match decodePage value with
    | .error e => .error e
    | .ok p =>
      match decodePages rest with
      | .error e => .error e
      | .ok ps => .ok (p :: ps)

/-- `ParserInputAction.js:86-98`: one argument of the action `action`. -/
def readArg (action : String) (name : Option String) (value : Data) : Except EditErr ArgVal :=
  if action = "PagerAction" ∧ name = some "pages" then
    match value with
    | .list items =>
      match decodePages items with
      | .ok ps => .ok (.pages ps)
      | .error e => .error e
    | _ => .error .type
  else
    match codeOf value with
    | .ok n => .ok (.code n)
    | .error e => .error (.parser e)

/-- `ParserInputAction.js:79-101`: the arguments. An empty name counts as none. -/
def readArgs (action : String) : Entries → Except EditErr (List (Option String × ArgVal))
  | .nil => .ok []
  | .cons name value rest =>
    match readArg action name value with
    | .error e => .error e
    | .ok v =>
      match readArgs action rest with
      | .error e => .error e
      | .ok vs => .ok ((name.bind fun n => if n = "" then none else some n, v) :: vs)

/-- `ParserInputAction.js:13-23, 79-101`: name, `assign` and arguments of an item of a list of actions. A string, a list and a
wrapped value have neither name nor arguments, a dict has no name. -/
def readAction : Data → Except EditErr ActionDef
  | .call name args assign =>
    match readArgs name args with
    | .ok vs => .ok ⟨some name, assign, vs⟩
    | .error e => .error e
  | .dict args assign =>
    match readArgs "" args with
    | .ok vs => .ok ⟨none, assign, vs⟩
    | .error e => .error e
  | .val _ assign => .ok ⟨none, assign, []⟩
  | .code _ => .ok ⟨none, none, []⟩
  | .list _ => .ok ⟨none, none, []⟩

/-- The items of a list of actions without the entries `None` (`ParserInput.js:93-95`). -/
def readActions : Entries → Except EditErr (List ActionDef)
  | .nil => .ok []
  | .cons _ value rest =>
    if value = .code (.name "None") then readActions rest
    else
      match readAction value with
      | .error e => .error e
      | .ok a =>
        match readActions rest with
        | .error e => .error e
        | .ok as => .ok (a :: as)

/-- `ParserInput.js:149-176` `#encodePage`. A page without id cannot be saved (`CodeGenerator.py:139-143`). -/
def encodePage (p : PageDef) : Except EditErr Data :=
  match p.id with
  | none => .error .invalid
  | some id =>
    let text : Entries := match p.text with | some t => .cons (some "text") t .nil | none => .nil
    let color : Entries := match p.color with | some c => .cons (some "color") c text | none => text
    .ok (.dict (.cons (some "id") id color) none)

/-- `ParserInput.js:118-127`. -/
def encodePages : List PageDef → Except EditErr Entries
  | [] => .ok .nil
  | p :: ps =>
    match encodePage p with
    | .error e => .error e
    | .ok d =>
      match encodePages ps with
      | .error e => .error e
      | .ok ds => .ok (.cons none d ds)

/-- `ParserInput.js:117-134`: one argument. Pages which are not those of a pager do not occur. -/
def writeArg (action : String) (name : Option String) (v : ArgVal) : Except EditErr Data :=
  if action = "PagerAction" ∧ name = some "pages" then
    match v with
    | .pages ps =>
      match encodePages ps with
      | .ok ds => .ok (.list ds)
      | .error e => .error e
    | .code _ => .error .type
  else
    match v with
    | .code n => .ok (.code n)
    | .pages _ => .error .type

/-- `ParserInput.js:117-134`. -/
def writeArgs (action : String) : List (Option String × ArgVal) → Except EditErr Entries
  | [] => .ok .nil
  | (name, v) :: rest =>
    match writeArg action name v with
    | .error e => .error e
    | .ok d =>
      match writeArgs action rest with
      | .error e => .error e
      | .ok ds => .ok (.cons name d ds)

/-- `ParserInput.js:113-136`: one action. Without a name it cannot be saved (`CodeGenerator.py:97`; here the exception comes
at once, in the program the tree has been changed before). -/
def writeAction (a : ActionDef) : Except EditErr Data :=
  match a.name with
  | none => .error .invalid
  | some name =>
    match writeArgs name a.args with
    | .ok args => .ok (.call name args (a.assign.bind fun x => if x = "" then none else some x))
    | .error e => .error e

/-- `ParserInput.js:113-136`: all actions. -/
def writeActions : List ActionDef → Except EditErr Entries
  | [] => .ok .nil
  | a :: as =>
    match writeAction a with
    | .error e => .error e
    | .ok d =>
      match writeActions as with
      | .error e => .error e
      | .ok ds => .ok (.cons none d ds)

/-! ### Inputs -/

/-- `Parser.js:194-201`: the arguments of a node, `none` if there are none. -/
def entriesOf : Data → Option Entries
  | .call _ args _ => some args
  | .dict args _ => some args
  | _ => none

/-- `Parser.js:191-212`: is it the data of the input with this assignment? The assignment is compared as source code; names
which are imported are names in the tree. -/
def isInput (assignment : String) (d : Data) : Bool :=
  match entriesOf d with
  | some args => findEntry "assignment" args == some (.code (.name assignment))
  | none => false

/-- `Parser.js:191-212`: the first input with this assignment. -/
def findInput (assignment : String) : Entries → Option Entries
  | .nil => none
  | .cons _ d rest => if isInput assignment d then entriesOf d else findInput assignment rest

/-- The arguments of a node are changed in place (`ParserTreeElement.js:45-62`). -/
def changeArgs (f : Entries → Entries) : Data → Data
  | .call name args assign => .call name (f args) assign
  | .dict args assign => .dict (f args) assign
  | d => d

/-- `Parser.js:191-212`, `ParserTreeElement.js:45-62`: the data of the first input with the assignment is changed in place. -/
def changeInput (assignment : String) (f : Entries → Entries) : Entries → Entries
  | .nil => .nil
  | .cons n d rest =>
    if isInput assignment d then
      .cons n (changeArgs f d) rest
    else .cons n d (changeInput assignment f rest)

/-- `ParserInput.js:90, 139`: the name of the argument. -/
def actionsKey (hold : Bool) : String := if hold then "actionsHold" else "actions"

/-- `ParserInput.js:84-104`: `actions` of the data of an input (nothing is buffered). -/
def actionsIn (args : Entries) (hold : Bool) : Except EditErr (List ActionDef) :=
  match findEntry (actionsKey hold) args with
  | none => .ok []
  | some (.list items) => readActions items
  | some _ => .error .type

/-- `Parser.js:191-212`, `ParserInput.js:84-104`: the actions of an input, read from the tree. -/
def actionsOf (assignment : String) (hold : Bool) : Data → Except EditErr (List ActionDef)
  | .list inputs =>
    match findInput assignment inputs with
    | none => .error .unknownInput
    | some args => actionsIn args hold
  | _ => .error .type

/-- `ParserInput.js:109-144` `setActions`, without saving. -/
def setActions (assignment : String) (hold : Bool) (actions : List ActionDef) : Data → Except EditErr Data
  | .list inputs =>
    match findInput assignment inputs with
    | none => .error .unknownInput
    | some _ =>
      match writeActions actions with
      | .error e => .error e
      | .ok items => .ok (.list (changeInput assignment (putEntry (actionsKey hold) (.list items)) inputs))
  | _ => .error .type

/-- `ParserInput.js:53-58, 73-78` `setHoldTimeMillis` and `setHoldRepeat` (the value is source code), without saving. -/
def setOption (assignment key : String) (value : Node) : Data → Except EditErr Data
  | .list inputs =>
    match findInput assignment inputs with
    | none => .error .unknownInput
    | some _ => .ok (.list (changeInput assignment (putEntry key (.code value)) inputs))
  | _ => .error .type

/-- `Parser.js:235-250` `updateConfig`, for `inputs.py`. -/
def saveInputs (tree : Data) (body : List Stmt) : Except EditErr (List Stmt) :=
  match setInputs tree body with
  | .ok saved => .ok saved
  | .error e => .error (.parser e)

/-! ### The buffered lists of an input -/

/-- `ParserInput.js:5-6`: the data of the input, and the lists which have been read. -/
structure Handle where
  args : Entries
  actions : Option (List ActionDef) := none
  actionsHold : Option (List ActionDef) := none
deriving DecidableEq

/-- `ParserInput.js:84-104` `actions`. -/
def Handle.get (h : Handle) (hold : Bool) : Except EditErr (List ActionDef × Handle) :=
  match (if hold then h.actionsHold else h.actions) with
  | some l => .ok (l, h)
  | none =>
    match findEntry (actionsKey hold) h.args with
    | none => .ok ([], h)
    | some _ =>
      match actionsIn h.args hold with
      | .error e => .error e
      | .ok l => .ok (l, if hold then { h with actionsHold := some l } else { h with actions := some l })

/-- `ParserInput.js:109-144` `setActions` with `noUpdate`: only the normal actions are forgotten. -/
def Handle.set (h : Handle) (hold : Bool) (actions : List ActionDef) : Except EditErr Handle :=
  match writeActions actions with
  | .error e => .error e
  | .ok items => .ok { h with actions := none, args := putEntry (actionsKey hold) (.list items) h.args }

/-- Reading or setting a list. (`ParserInput.js:84-144`.) -/
inductive HandleOp where
  | read (hold : Bool)
  | write (hold : Bool) (actions : List ActionDef)
deriving DecidableEq

/-- One operation on the input (`ParserInput.js:84-144`); exceptions end the history. -/
def Handle.step (h : Handle) : HandleOp → Except EditErr Handle
  | .read hold => (h.get hold).map Prod.snd
  | .write hold actions => h.set hold actions

/-- A history. (No code of its own: a history of `Handle.step`.) -/
def Handle.run : Handle → List HandleOp → Except EditErr Handle
  | h, [] => .ok h
  | h, op :: ops =>
    match h.step op with
    | .error e => .error e
    | .ok h' => Handle.run h' ops

end PySwitch.Editor
