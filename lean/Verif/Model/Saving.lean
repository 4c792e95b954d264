import Verif.Model.Workspace
/-!
Model of saving a configuration to its place while the user goes on (`web/htdocs/js/model/configurations/Configuration.js`,
`LocalFolderConfiguration.js`, `ControllerConfiguration.js`, `DeviceController.js:105-116`, `model/parser/Parser.js:235-277`). Saving takes some
time: files are written one after the other, or at the same time, and the page is not blocked all the while (never with a folder; with a controller
it is free until the first part is acknowledged, and again between the two files, as `DeviceController.js:172` hides the block with the last part).
In `Model/Workspace.lean` saving is one step. Here everything else is left out.

The data are objects: a change of one file by its code editor changes the object (`Parser.js:258-259`), a change by the other editors creates a new
one (`Parser.js:244-247`). Simplified: with a controller there is one saving at a time (the bridge can send one file at a time).
-/

namespace PySwitch.Saving
open PySwitch.Workspace (Files Tab)

/-- Where the configuration is saved to. -/
inductive Kind where
  | folder | controller
deriving DecidableEq, Repr

/-- A saving which is going on: its key, the object it takes the data from, the texts which have been taken from it, the files which are written. -/
structure Save where
  key : Nat
  cell : Nat
  inputs : String
  display : Option String
  wroteInputs : Bool := false
  wroteDisplay : Bool := false
deriving DecidableEq, Repr

/-- The state: the objects there are (the last one is the one of the configuration), the mark for unsaved changes, the files at the place of the
configuration, what is going on, and the next key. -/
structure State where
  cells : List Files
  dirty : Bool := false
  stored : Files
  saves : List Save := []
  next : Nat := 0
deriving DecidableEq, Repr

/-- The data of the configuration. (`Configuration.js:40-47` `get`.) -/
def State.data (s : State) : Files := s.cells.getLast?.getD ⟨"", ""⟩

/-- After loading. (`Configuration.js:41-44`.) -/
def loaded (f : Files) : State := { cells := [f], stored := f }

inductive Ev where
  /-- The code editor of a file. (`Parser.js:255-264`, `Configuration.js:52-55`.) -/
  | code (t : Tab) (x : String)
  /-- The other editors. (`Parser.js:235-250`.) -/
  | replace (f : Files)
  /-- Saving is started. (`Configuration.js:76`.) -/
  | save
  /-- A file is written. -/
  | wrote (key : Nat) (t : Tab)
  /-- All is written. (`Configuration.js:78`.) -/
  | finished (key : Nat)
  /-- Something has failed: the exception leaves `save`. -/
  | failed (key : Nat)
deriving DecidableEq, Repr

/-- Change of the object the configuration uses. (`Parser.js:259`.) -/
def setLast (cells : List Files) (f : Files → Files) : List Files :=
  match cells with
  | [] => []
  | [x] => [f x]
  | x :: y :: r => x :: setLast (y :: r) f

/-- Saving is started: the folder takes both texts at once (`LocalFolderConfiguration.js:80, 88-89`), the controller the first one
(`DeviceController.js:110-112`). -/
def State.begin (kind : Kind) (s : State) : Save :=
  { key := s.next, cell := s.cells.length - 1, inputs := s.data.inputs
    display := match kind with | .folder => some s.data.display | .controller => none }

/-- The first file is written; now the controller takes the second text. (`LocalFolderConfiguration.js:88`, `DeviceController.js:112-113`.) -/
def Save.afterInputs (cells : List Files) (v : Save) : Save :=
  { v with wroteInputs := true
           display := match v.display with | some d => some d | none => (cells[v.cell]?).map Files.display }

def State.update (s : State) (key : Nat) (f : Save → Save) : List Save := s.saves.map fun v => if v.key = key then f v else v

def State.step (kind : Kind) (s : State) : Ev → State
  | .code t x => { s with cells := setLast s.cells fun f => f.put t x, dirty := true }
  | .replace f => { s with cells := s.cells ++ [f], dirty := true }
  | .save =>
    if kind = .controller ∧ s.saves ≠ [] then s
    else { s with saves := s.saves ++ [s.begin kind], next := s.next + 1 }
  | .wrote key .inputs =>
    match s.saves.find? fun v => v.key == key with
    | some v =>
      if v.wroteInputs then s
      else { s with stored := s.stored.put .inputs v.inputs, saves := s.update key (Save.afterInputs s.cells) }
    | none => s
  | .wrote key .display =>
    match s.saves.find? fun v => v.key == key with
    | some v =>
      match v.display with
      | some d =>
        if v.wroteDisplay then s
        else { s with stored := s.stored.put .display d, saves := s.update key fun v => { v with wroteDisplay := true } }
      | none => s
    | none => s
  | .finished key =>
    match s.saves.find? fun v => v.key == key with
    | some v =>
      if v.wroteInputs && v.wroteDisplay then { s with dirty := false, saves := s.saves.filter fun v => v.key != key } else s
    | none => s
  | .failed key => { s with saves := s.saves.filter fun v => v.key != key }

def run (kind : Kind) (f : Files) (es : List Ev) : State := es.foldl (State.step kind) (loaded f)

end PySwitch.Saving
