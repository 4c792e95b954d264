import Verif.Model.EditorInput

/-!
Model of the checks of the configuration editor (`web/htdocs/js/model/parser/ParserChecks.js`,
`ParserInputAction.js:53-74`): the warning about displays which are used more than once at a time.

`text` is the source code of an expression, as a string (`libcst`). Actions get their position as id
instead of a random one.
-/

namespace PySwitch.Editor.Checks
open PySwitch.Editor

/-- JavaScript `s.includes(p)`, on characters. (Used in `ParserChecks.js:161`.) -/
def includes (p : List Char) : List Char → Bool
  | [] => p.isEmpty
  | c :: s => p.isPrefixOf (c :: s) || includes p s

/-- JavaScript `s.split(".")`, on characters. (Used in `ParserInputAction.js:62`.) -/
def splitDot : List Char → List (List Char)
  | [] => [[]]
  | c :: s =>
    match splitDot s with
    | [] => [[]]
    | w :: ws => if c = '.' then [] :: w :: ws else (c :: w) :: ws

/-- `ParserInputAction.js:106-116` `argument`. The pages of a pager have no source code. -/
def argument (text : Node → String) (a : ActionDef) (name : String) : Option String :=
  match a.args.find? fun e => e.1 == some name with
  | some (_, .code n) => some (text n)
  | _ => none

/-- `ParserInputAction.js:53-66` `pager`. -/
def pager (text : Node → String) (a : ActionDef) : Option String :=
  match argument text a "enable_callback" with
  | none => none
  | some ec =>
    if ec = "" ∨ ec = "None" then none
    else
      match argument text a "id" with
      | none => none
      | some id =>
        if id = "" ∨ id = "None" then none
        else
          match splitDot ec.toList with
          | [p, _] => some (String.ofList p)
          | _ => none

/-- `ParserInputAction.js:71-74` `page`. -/
def page (text : Node → String) (a : ActionDef) : Option String :=
  match pager text a with
  | none => none
  | some p => if p = "" then none else argument text a "id"

/-- `ParserChecks.js:147-169`: the arguments of one action. An argument without name has no `includes`. -/
def usagesInArgs (text : Node → String) (display : String) (all : Bool) (a : Nat × ActionDef) :
    List (Option String × ArgVal) → Except EditErr (List (Nat × ActionDef))
  | [] => .ok []
  | (name, v) :: rest =>
    match v with
    | .pages _ => usagesInArgs text display all a rest
    | .code n =>
      if text n = display then
        if all then (usagesInArgs text display all a rest).map (a :: ·)
        else
          match name with
          | none => .error .type
          | some name =>
            if !includes "preview".toList name.toList && !includes "change".toList name.toList then
              (usagesInArgs text display all a rest).map (a :: ·)
            else usagesInArgs text display all a rest
      else usagesInArgs text display all a rest

/-- `ParserChecks.js:147-169`: a list of actions. -/
def usagesIn (text : Node → String) (display : String) (all : Bool) :
    List (Nat × ActionDef) → Except EditErr (List (Nat × ActionDef))
  | [] => .ok []
  | a :: rest =>
    match usagesInArgs text display all a a.2.args with
    | .error e => .error e
    | .ok us =>
      match usagesIn text display all rest with
      | .error e => .error e
      | .ok us' => .ok (us ++ us')

/-- `ParserChecks.js:172-182`: all actions of the inputs of the hardware, normal and hold actions of each. -/
def allActions (tree : Data) : List String → Except EditErr (List ActionDef)
  | [] => .ok []
  | assignment :: rest =>
    match actionsOf assignment false tree with
    | .error .unknownInput => allActions tree rest
    | .error e => .error e
    | .ok as =>
      match actionsOf assignment true tree with
      | .error e => .error e
      | .ok as' =>
        match allActions tree rest with
        | .error e => .error e
        | .ok more => .ok (as ++ as' ++ more)

/-- The actions with their positions as ids. (`ParserInputAction.js:13-23`.) -/
def numbered (l : List ActionDef) : List (Nat × ActionDef) := l.zipIdx.map fun e => (e.2, e.1)

/-- `ParserChecks.js:140-187` `getDisplayUsages` (without the buffer; the order of exceptions of different inputs is
different). -/
def getDisplayUsages (text : Node → String) (actions : List ActionDef) (display : String) (all : Bool := false) :
    Except EditErr (List (Nat × ActionDef)) :=
  usagesIn text display all (numbered actions)

/-- `ParserChecks.js:67-101`: the pagers, with the pages which use the display. -/
def addPage (pg : Option String) (pa : Option String) :
    List (Option String × List (Option String)) → List (Option String × List (Option String))
  | [] => [(pg, [pa])]
  | (p, pages) :: rest =>
    if p = pg then (p, if pages.contains pa then pages else pages ++ [pa]) :: rest
    else (p, pages) :: addPage pg pa rest

/-- A warning: the display, and the ids of the actions. (`ParserChecks.js:122-128`.) -/
structure Message where
  value : String
  actions : List Nat
deriving DecidableEq, Repr

/-- `ParserChecks.js:103-115`: messages with the same text (here: for the same display) are one. -/
def addMessage (m : Message) : List Message → List Message
  | [] => [m]
  | m' :: rest =>
    if m'.value = m.value then { m' with actions := (m'.actions ++ m.actions).eraseDups } :: rest
    else m' :: addMessage m rest

/-- `ParserChecks.js:119`: the usages which can be seen with this page of this pager. -/
def together (text : Node → String) (pg pa : Option String) (usages : List (Nat × ActionDef)) : List (Nat × ActionDef) :=
  usages.filter fun u => pager text u.2 != pg || (page text u.2 == pa && pager text u.2 == pg)

/-- `ParserChecks.js:117-131`, for one pager and page. -/
def warn (text : Node → String) (display : String) (usages : List (Nat × ActionDef)) (pg pa : Option String)
    (msgs : List Message) : List Message :=
  let f := together text pg pa usages
  if f.length > 1 then addMessage ⟨display, f.map (·.1)⟩ msgs else msgs

/-- `ParserChecks.js:65-133`: one display. -/
def checkDisplay (text : Node → String) (display : String) (usages : List (Nat × ActionDef)) (msgs : List Message) :
    List Message :=
  let pagers := usages.foldl (fun acc u => addPage (pager text u.2) (page text u.2) acc) []
  pagers.foldl (fun msgs p => p.2.foldl (fun msgs pa => warn text display usages p.1 pa msgs) msgs) msgs

/-- `ParserChecks.js:61-134` `#checkDisplayLabels`. -/
def check (text : Node → String) (actions : List ActionDef) : List String → List Message → Except EditErr (List Message)
  | [], msgs => .ok msgs
  | display :: rest, msgs =>
    match getDisplayUsages text actions display with
    | .error e => .error e
    | .ok usages => check text actions rest (checkDisplay text display usages msgs)

/-- `ParserChecks.js:24-30,35-38`: `messages`, for a tree of inputs and the displays of `display.py`. -/
def messages (text : Node → String) (tree : Data) (hardware displays : List String) : Except EditErr (List Message) :=
  match allActions tree hardware with
  | .error e => .error e
  | .ok actions => check text actions displays []

/-- `ParserChecks.js:43-56` `messagesForAction`: the warnings shown at an action. -/
def messagesForAction (msgs : List Message) (id : Nat) : List Message :=
  msgs.flatMap fun m => (m.actions.filter (· == id)).map fun _ => m

end PySwitch.Editor.Checks
