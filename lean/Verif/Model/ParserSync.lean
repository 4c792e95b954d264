/-!
The parser of the editor between the code of the configuration and the lists of actions and the display editor:
`web/htdocs/js/model/parser/Parser.js`, `web/htdocs/python/parser/PySwitchParser.py`, with the restarts of
`web/htdocs/js/Controller.js` which use it.

Given are python's parsing of a file, its printing, the tree of a parsed file which is shown and edited (`Inputs`, `Splashes`), and the
generation of code from both trees (see `Model/Editor`, `Model/Imports` for these). The search for the tree is taken not to fail.
-/

namespace PySwitch.ParserSync

/-- The data of a configuration. (`Configuration.js:33-39`.) -/
structure Files where
  inputs : String
  display : String
deriving DecidableEq, Repr

/-- The two code editors. (`PySwitchUI.js:642-650`.) -/
inductive Tab where
  | inputs | display
deriving DecidableEq, Repr

/-- `data[fileName] = code` (`Parser.js:259`). -/
def Files.put (f : Files) (t : Tab) (x : String) : Files :=
  match t with
  | .inputs => { f with inputs := x }
  | .display => { f with display := x }

/-- What is given: `libcst.parse_module` (`PySwitchParser.py:31-35`), `code` (`:43-46`), the trees (`:57-63, 106-111`), the changes of
both files by `set_inputs`, `set_splashes` and the imports (`:66-83, 114-130, 38-41`), and the hardware for a text of `inputs.py`
(`Device.js:9-24`). -/
structure Env (C T : Type) where
  parse : String → Option C
  print : C → String
  inputsTree : C → T
  displayTree : C → T
  generate : T × T → C × C → C × C
  hardware : String → Nat

/-- The parser, with the configuration: `py` is the python object with its hardware and its parsed files (`Parser.js:16`,
`PySwitchParser.py:20-22`), `inputsTree` and `displayTree` the loaded trees (`Parser.js:27`), `shown` what the frontend shows
(`PySwitchFrontend.js:36-70`). -/
structure State (C T : Type) where
  files : Files
  dirty : Bool := false
  py : Option (Nat × Option (C × C)) := none
  inputsTree : Option T := none
  displayTree : Option T := none
  shown : Option (T × T) := none
deriving DecidableEq, Repr

variable {C T : Type}

/-- `PySwitchParser.py:31-35` `from_source`; `none` if it raises. -/
def fromSource (env : Env C T) (f : Files) : Option (C × C) :=
  match env.parse f.inputs with
  | none => none
  | some a =>
    match env.parse f.display with
    | none => none
    | some b => some (a, b)

/-- The parsed files, if there are any. (`PySwitchParser.py:58-59, 107-108`.) -/
def State.csts (s : State C T) : Option (C × C) :=
  match s.py with
  | some (_, c) => c
  | none => none

/-- One call of `createTree` (`Parser.js:73-80`): nothing is done if the tree is loaded; `none` if it raises. -/
def createTree (loaded : Option T) (data : Option T) : Option (Option T) :=
  match loaded with
  | some t => some (some t)
  | none =>
    match data with
    | some t => some (some t)
    | none => none

/-- `Parser.js:71-84` `#initTrees`; `false` if it raises. -/
def initTrees (env : Env C T) (s : State C T) : State C T × Bool :=
  match createTree s.inputsTree (s.csts.map fun c => env.inputsTree c.1) with
  | none => (s, false)
  | some a =>
    let s := { s with inputsTree := a }
    match createTree s.displayTree (s.csts.map fun c => env.displayTree c.2) with
    | none => (s, false)
    | some b => ({ s with displayTree := b }, true)

/-- `Parser.js:40-66` `init`; `false` if it raises. The new python object stays also then (line 50). -/
def init (env : Env C T) (s : State C T) : State C T × Bool :=
  let hw := env.hardware s.files.inputs
  match s.py with
  | some (n, c) =>
    if n = hw then initTrees env { s with py := some (n, c) }
    else
      match fromSource env s.files with
      | none => ({ s with py := some (hw, none) }, false)
      | some cs => initTrees env { s with py := some (hw, some cs) }
  | none =>
    match fromSource env s.files with
    | none => ({ s with py := some (hw, none) }, false)
    | some cs => initTrees env { s with py := some (hw, some cs) }

/-- `Parser.js:89-94` `reset` -/
def reset (s : State C T) : State C T := { s with inputsTree := none, displayTree := none }

/-- `Parser.js:235-250` `updateConfig` with `Configuration.js:52-55`; `false` if it raises. -/
def updateConfig (env : Env C T) (s : State C T) : State C T × Bool :=
  match s.py with
  | none => (s, false)
  | some (n, _) =>
    let (s, ok) := initTrees env s
    if !ok then (s, false)
    else
      match s.csts, s.inputsTree, s.displayTree with
      | some cs, some a, some b =>
        let cs := env.generate (a, b) cs
        (reset { s with py := some (n, some cs), files := ⟨env.print cs.1, env.print cs.2⟩, dirty := true }, true)
      | _, _, _ => (s, false)

/-- `Parser.js:269-277` `updateFromData`; `false` if it raises. The object with the files is the one of the configuration, which the
caller has changed in place (`Parser.js:258-259`, `Upload.js:44-53`), so it counts from the beginning. -/
def updateFromData (env : Env C T) (s : State C T) (f : Files) : State C T × Bool :=
  let s := { s with files := f }
  let (s, ok) := init env s
  if !ok then (s, false)
  else
    let s := { s with dirty := true }
    match fromSource env s.files with
    | none => (s, false)
    | some cs => (reset { s with py := s.py.map fun p => (p.1, some cs) }, true)

/-- `Parser.js:255-264` `updateFromSource`; `false` if it raises. -/
def updateFromSource (env : Env C T) (s : State C T) (t : Tab) (x : String) : State C T × Bool :=
  let (s, ok) := init env s
  if !ok then (s, false)
  else
    let (s, ok) := updateFromData env s (s.files.put t x)
    if !ok then (s, false) else (reset s, true)

/-- `PySwitchUI.js:622-660` `applyConfig`: the frontend shows the trees of the parser. `false` if it raises. -/
def applyConfig (env : Env C T) (s : State C T) : State C T × Bool :=
  let (s, ok) := init env s
  if !ok then (s, false)
  else
    match s.inputsTree, s.displayTree with
    | some a, some b => ({ s with shown := some (a, b) }, true)
    | _, _ => (s, false)

/-- What the user does: apply the text of a code editor (`CodeEditor.js:91-101`), upload files (`Upload.js:39-58`, the ones not among the
chosen files stay), edit what is shown (`ParserFrontend.js:127-140`, `InputSettings.js:38-60`, `DisplayEditor.js:271-280`: the trees are changed
in place), or a restart without changes (`EmulatorSettings.js:298-302`). -/
inductive Ev (T : Type) where
  | apply (t : Tab) (x : String)
  | upload (inputs display : Option String)
  | edit (g : T × T → T × T)
  | restart

/-- Change the trees in place. (`ParserInput.js:58, 78, 142`, `Parser.js:226-230`.) -/
def change (g : T × T → T × T) (s : State C T) : State C T :=
  match s.inputsTree, s.displayTree with
  | some a, some b => { s with inputsTree := some (g (a, b)).1, displayTree := some (g (a, b)).2 }
  | _, _ => s

/-- The change of an event, in the restart. (`Controller.js:224-226`.) -/
def changeCallback (env : Env C T) (s : State C T) : Ev T → State C T × Bool
  | .apply t x => updateFromSource env s t x
  | .upload i d => updateFromData env s ⟨i.getD s.files.inputs, d.getD s.files.display⟩
  | .edit g =>
    let (s, ok) := init env s
    if !ok then (s, false) else updateConfig env (change g s)
  | .restart => (s, true)

/-- `Controller.js:209-247` `restart`; `false` if an error is shown. The lists of actions stay in place until a new frontend is applied
(only the switches and the display are hidden, `PySwitchFrontend.js:28-32, 69, 207`). -/
def step (env : Env C T) (s : State C T) (e : Ev T) : State C T × Bool :=
  let (s, ok) := changeCallback env s e
  if !ok then (s, false) else applyConfig env s

/-- Loading a configuration: it gets a new parser. (`Controller.js:143-199`, `Configuration.js:24-28`.) -/
def load (env : Env C T) (f : Files) : State C T × Bool := applyConfig env { files := f }

/-- A sequence of events, with their results. -/
def run (env : Env C T) (s : State C T) : List (Ev T) → State C T × List Bool
  | [] => (s, [])
  | e :: es =>
    let r := step env s e
    let r' := run env r.1 es
    (r'.1, r.2 :: r'.2)

end PySwitch.ParserSync
