/-!
Model of the editor's work on a configuration: where configurations are loaded from and saved to, the marks for unsaved
changes, the two code editors, and the questions the user is asked before changes are discarded.
(`web/htdocs/js/model/configurations/*.js`, `model/Presets.js`, `Controller.js:143-247`, `routing/Routing.js`,
`ui/PySwitchUI.js`, `ui/editors/CodeEditor.js`, `ui/tabs/Tabs.js`, `ui/localfolder/LocalFolderSelection.js`,
`ui/presets/LocalPresetsProvider.js`, `ui/misc/Upload.js`, `model/parser/Parser.js:36-66, 235-277`.)

Simplified: Every event runs to its end before the next one (the page is blocked while a configuration is loaded or
saved). The contents of the two editors are set at once (`CodeEditor.js:165-186` uses a timeout). Setting the location to
the one already shown does nothing (`_checkLocation` in `lib/sammy-latest.min.js`). The observer which an auxiliary configuration leaves behind
(`PySwitchUI.js:512-514`) is left out: its only effect is a call of the local folder, which is an event of its own.
-/

namespace PySwitch.Workspace

/-- The data of a configuration. (`Configuration.js:33-39`.) -/
structure Files where
  inputs : String
  display : String
deriving DecidableEq, Repr

/-- The two code editors. (`PySwitchUI.js:642-650`.) -/
inductive Tab where
  | inputs | display
deriving DecidableEq, Repr

/-- The text of one file. -/
def Files.text (f : Files) : Tab → String
  | .inputs => f.inputs
  | .display => f.display

/-- `data[fileName] = code` (`Parser.js:259`). -/
def Files.put (f : Files) (t : Tab) (x : String) : Files :=
  match t with
  | .inputs => { f with inputs := x }
  | .display => { f with display := x }

/-- The kinds of configurations with what they are constructed from. (`Routing.js:51-95`.) -/
inductive Place where
  | web (path : String)
  | preset (id : String)
  | device (port : String)
  | folder
deriving DecidableEq, Repr

/-- What is given: whether python accepts the two files (`Parser.js:63, 274`), which hardware a text of `inputs.py` is
for (`Device.js:9-24`), the files on the web server (`WebConfiguration.js:22-27`), and the template which is used for
empty files (`LocalFolderConfiguration.js:38-44`). -/
structure Env where
  parses : Files → Bool
  hardware : String → Nat
  web : String → Option Files
  template : Files

/-- What remains when the page is closed: the presets in the local storage (`Presets.js`; a preset without data is `none`),
the files of the connected controllers, the folders of the file system, the folder chosen last
(`LocalFolderSelection.js:51-60`) and the last used controller (`ControllerConfiguration.js:59-61`). -/
structure Store where
  presets : List (String × Option Files) := []
  devices : String → Option Files := fun _ => none
  folders : Nat → Option Files := fun _ => none
  handle : Option Nat := none
  last : Option String := none

/-! ### Presets -/

/-- `Presets.js:12-16` -/
def getAll (ps : List (String × Option Files)) : List String := ps.map (·.1)

/-- `Presets.js:28-38` -/
def getPreset (ps : List (String × Option Files)) (id : String) : Option Files :=
  match ps with
  | [] => none
  | p :: rest => if p.1 = id then p.2 else getPreset rest id

/-- `Presets.js:21-23` -/
def hasPreset (ps : List (String × Option Files)) (id : String) : Bool := (getPreset ps id).isSome

/-- `Presets.js:61-67` -/
def deletePreset (ps : List (String × Option Files)) (id : String) : List (String × Option Files) :=
  ps.filter (fun p => p.1 != id)

/-- `Presets.js:43-56` -/
def setPreset (ps : List (String × Option Files)) (id : String) (data : Option Files) : List (String × Option Files) :=
  ps.filter (fun p => p.1 != id) ++ [(id, data)]

/-- `LocalPresetsProvider.js:70-75`: the new name is what the user enters, empty if canceled. -/
def renamePreset (ps : List (String × Option Files)) (id new : String) : List (String × Option Files) :=
  if new = "" then ps
  else setPreset (deletePreset ps id) new (getPreset ps id)

/-- `PySwitchUI.js:472-477`: the names the user enters one after the other, empty if canceled. Without further answers
the question stays open, and nothing happens. -/
def newName (ps : List (String × Option Files)) : List String → Option String
  | [] => none
  | x :: rest => if x = "" then none else if hasPreset ps x then newName ps rest else some x

/-! ### Reading and writing -/

/-- The files in a folder, with the template for empty ones. (`LocalFolderConfiguration.js:31-44`.) -/
def orTemplate (env : Env) (f : Files) : Files :=
  { inputs := if f.inputs = "" then env.template.inputs else f.inputs,
    display := if f.display = "" then env.template.display else f.display }

/-- What `load()` of a configuration returns; `none` if it throws. (`WebConfiguration.js:22-27`,
`PresetConfiguration.js:20-23`, `ControllerConfiguration.js:17-37`, `LocalFolderConfiguration.js:21-56`.) A folder without
the files gets empty ones (`LocalFolderConfiguration.js:100-115`), so a folder `none` cannot be found anymore. -/
def read (env : Env) (st : Store) : Place → Option Files
  | .web path => env.web path
  | .preset id => getPreset st.presets id
  | .device port => st.devices port
  | .folder => (st.handle.bind st.folders).map (orTemplate env)

/-- How the attempt to write both files goes: both are written, none (an exception before the first one), or only one of
them. -/
inductive Written where
  | both | neither | onlyInputs | onlyDisplay
deriving DecidableEq, Repr

/-- The files in a place after the attempt. -/
def Written.apply (w : Written) (old new : Files) : Files :=
  match w with
  | .both => new
  | .neither => old
  | .onlyInputs => { old with inputs := new.inputs }
  | .onlyDisplay => { old with display := new.display }

/-- `doSave()`: the new store, and `true` if it does not throw. (`Configuration.js:123-125`, `PresetConfiguration.js:35-37`,
`ControllerConfiguration.js:49-54` with `DeviceController.js:105-116`, `LocalFolderConfiguration.js:75-95`.) A preset is
written as a whole or not at all, and the controller gets `inputs.py` first, so `onlyDisplay` there means `neither`. -/
def doSave (st : Store) (p : Place) (f : Files) (w : Written) : Store × Bool :=
  match p with
  | .web _ => (st, false)
  | .preset id => if w = .both then ({ st with presets := setPreset st.presets id (some f) }, true) else (st, false)
  | .device port =>
    match st.devices port with
    | none => (st, false)
    | some old =>
      let w := if w = .onlyDisplay then .neither else w
      let st := { st with devices := fun q => if q = port then some (w.apply old f) else st.devices q }
      if w = .both then ({ st with last := some port }, true) else (st, false)
  | .folder =>
    match st.handle with
    | none => (st, false)
    | some dir =>
      match st.folders dir with
      | none => (st, false)
      | some old =>
        ({ st with folders := fun d => if d = dir then some (w.apply old f) else st.folders d }, w = .both)

/-! ### The page -/

/-- The current configuration, which is always loaded. (`Configuration.js:7-9`.) -/
structure Config where
  place : Place
  files : Files
  dirty : Bool := false
deriving DecidableEq, Repr

/-- A code editor: its content, and the mark for content which is not applied yet. (`CodeEditor.js:6-8`.) -/
structure Editor where
  text : String
  dirty : Bool := false
deriving DecidableEq, Repr

/-- `editors` is `none` before the first configuration is shown (`PySwitchUI.js:642-650`), `marker` tells if the mark for
unsaved changes is visible (`PySwitchUI.js:780-789`), `parser` is the hardware of the parser in use (`Parser.js:43, 50`),
`location` is the place in the location of the page, `observed` the folder which is watched for changes. -/
structure State where
  store : Store := {}
  config : Option Config := none
  editors : Option (Editor × Editor) := none
  marker : Bool := false
  parser : Option Nat := none
  location : Option Place := none
  observed : Option Nat := none

/-- An editor of the page. -/
def State.editor (s : State) (t : Tab) : Option Editor :=
  s.editors.map fun e => match t with
    | .inputs => e.1
    | .display => e.2

/-- The questions of the page. (`CodeEditor.js:148-151`, `PySwitchUI.js:480, 605, 700`, `LocalPresetsProvider.js:48`.) -/
inductive Question where
  | discard (t : Tab)
  | unsaved
  | overwrite (id : String)
  | saveTo (port : String)
  | delete (id : String)
deriving DecidableEq, Repr

/-- What the user sees, and what is read from and written to a place as a whole. -/
inductive Out where
  | asked (q : Question) (yes : Bool)
  | loaded (p : Place) (f : Files)
  | saved (p : Place) (f : Files)
  | error
deriving DecidableEq, Repr

/-- The content of both editors is that of the files, without mark. (`CodeEditor.js:81-86, 165-174`.) -/
def showFiles (f : Files) : Editor × Editor := ({ text := f.inputs }, { text := f.display })

/-- `Controller.js:143-199` `loadConfiguration` with a new configuration for the place. If reading or showing it throws,
there is no current configuration afterwards, and the editors stay as they are. -/
def load (env : Env) (s : State) (p : Place) : State × List Out :=
  let s := { s with marker := false, config := none, observed := none }
  match read env s.store p with
  | none => (s, [.error])
  | some f =>
    let s := match p with
      | .device port => { s with store := { s.store with last := some port } }
      | .folder => { s with observed := s.store.handle }
      | _ => s
    if env.parses f then
      ({ s with config := some { place := p, files := f }, editors := some (showFiles f),
                parser := some (env.hardware f.inputs) }, [.loaded p f])
    else (s, [.error])

/-- The tabs ask first, one after the other until an answer is no. (`Tabs.js:127-132`, `CodeEditor.js:148-151`.) -/
def askTabs (s : State) (answer : Question → Bool) : Bool × List Out :=
  match s.editors with
  | none => (true, [])
  | some (i, d) =>
    if i.dirty && !answer (.discard .inputs) then (false, [.asked (.discard .inputs) false])
    else
      let out := if i.dirty then [.asked (.discard .inputs) true] else []
      if d.dirty then (answer (.discard .display), out ++ [.asked (.discard .display) (answer (.discard .display))])
      else (true, out)

/-- `PySwitchUI.js:694-704` `confirmIfDirty` -/
def confirmIfDirty (s : State) (answer : Question → Bool) : Bool × List Out :=
  let (ok, out) := askTabs s answer
  if !ok then (false, out)
  else
    match s.config with
    | some c => if c.dirty then (answer .unsaved, out ++ [.asked .unsaved (answer .unsaved)]) else (true, out)
    | none => (true, out)

/-- The location changes to a place, which loads it. (`Routing.js:107-120`.) -/
def goTo (env : Env) (s : State) (p : Place) : State × List Out :=
  if s.location = some p then (s, []) else load env { s with location := some p } p

/-- `Routing.js:146-150` `call` -/
def call (env : Env) (s : State) (p : Place) (answer : Question → Bool) : State × List Out :=
  let (ok, out) := confirmIfDirty s answer
  if ok then
    let (s, out') := goTo env s p
    (s, out ++ out')
  else (s, out)

/-- `LocalFolderSelection.js:36-46` `call` -/
def callFolder (env : Env) (s : State) (answer : Question → Bool) : State × List Out :=
  match s.config with
  | some { place := .folder, .. } => load env s .folder
  | _ => call env s .folder answer

/-- `Parser.js:40-66` `init`: a new parser if the hardware has changed, which reads the files of the configuration.
`false` if this throws. The new parser stays in place also then (line 50). -/
def initParser (env : Env) (s : State) (f : Files) : State × Bool :=
  if s.parser = some (env.hardware f.inputs) then (s, true)
  else ({ s with parser := some (env.hardware f.inputs) }, env.parses f)

/-- `Controller.js:233-234`, `PySwitchUI.js:619-660` `applyConfig` in a restart. -/
def showConfig (env : Env) (s : State) : State × List Out :=
  match s.config with
  | none => (s, [])
  | some c =>
    let (s, ok) := initParser env s c.files
    if ok then ({ s with editors := some (showFiles c.files) }, []) else (s, [.error])

/-- `Configuration.js:52-55` `set` of the current configuration. -/
def setFiles (s : State) (c : Config) (f : Files) : State :=
  { s with config := some { c with files := f, dirty := true }, marker := true }

/-- `Parser.js:269-277` `updateFromData` with the object of the current configuration, which the caller has changed in
place. `false` if it throws. -/
def updateFromData (env : Env) (s : State) (c : Config) (f : Files) : State × Bool :=
  let s := { s with config := some { c with files := f } }
  let (s, ok) := initParser env s f
  if !ok then (s, false)
  else (setFiles s c f, env.parses f)

/-- An edit which changes the parsed tree, and generates the files from it. (`Parser.js:235-250`, called by
`ParserFrontend.js:129-140`, `DisplayEditor.js:275` and others in a restart.) The generated files are always accepted by
python. -/
def editTree (env : Env) (s : State) (f : Files) : State × List Out :=
  match s.config with
  | none => (s, [])
  | some c => if env.parses f then showConfig env (setFiles s c f) else (s, [])

/-- `CodeEditor.js:91-101` `apply` with `Controller.js:209-247` and `Parser.js:255-264`. -/
def applyTab (env : Env) (s : State) (t : Tab) : State × List Out :=
  match s.config, s.editor t with
  | some c, some e =>
    let (s, ok) := initParser env s c.files
    if !ok then (s, [.error])
    else
      let (s, ok) := updateFromData env s c (c.files.put t e.text)
      if !ok then (s, [.error]) else showConfig env s
  | _, _ => (s, [])

/-- `Upload.js:39-58`: the files the user has chosen, `none` if not among them. -/
def upload (env : Env) (s : State) (i d : Option String) : State × List Out :=
  match s.config with
  | none => (s, [])
  | some c =>
    let f : Files := { inputs := i.getD c.files.inputs, display := d.getD c.files.display }
    let (s, ok) := updateFromData env s c f
    if !ok then (s, [.error]) else showConfig env s

/-- The current configuration is marked as saved. (`Configuration.js:99-102`.) -/
def resetDirty (s : State) : State :=
  { s with config := s.config.map fun c => { c with dirty := false }, marker := false }

/-- `PySwitchUI.js:244-252, 427-431` with `Configuration.js:76-79`: save to the current place. The observer stops while
the files are written, and stays off if this throws (`LocalFolderConfiguration.js:83-94`). -/
def saveCurrent (s : State) (w : Written) : State × List Out :=
  match s.config with
  | none => (s, [.error])
  | some c =>
    let (st, ok) := doSave s.store c.place c.files w
    let observed := if c.place = .folder then (if ok then st.handle else none) else s.observed
    let s := { s with store := st, observed := observed }
    if ok then (resetDirty s, [.saved c.place c.files]) else (s, [.error])

/-- Save the data of the current configuration by an auxiliary configuration for another place. (`PySwitchUI.js:483-487,
512-516, 610-614`.) The mark is shown when the data are set (`Configuration.js:52-55`), and hidden only if saving works. -/
def saveAs (s : State) (c : Config) (p : Place) (w : Written) : State × Bool :=
  let (st, ok) := doSave s.store p c.files w
  let s := { s with store := st, marker := true }
  if ok then (resetDirty s, true) else (s, false)

/-- `PySwitchUI.js:594-617` `saveToController` -/
def saveDevice (s : State) (port : String) (confirm : Bool) (answer : Question → Bool) (w : Written) : State × List Out :=
  match s.config with
  | none => (s, [.error])
  | some c =>
    let out := if confirm then [.asked (.saveTo port) (answer (.saveTo port))] else []
    if confirm && !answer (.saveTo port) then (s, out)
    else
      let (s, ok) := saveAs s c (.device port) w
      (s, out ++ if ok then [.saved (.device port) c.files] else [.error])

/-- The steps of `PySwitchUI.js:483-490` for a name. -/
def saveToPreset (env : Env) (s : State) (c : Config) (id : String) (answer : Question → Bool) (w : Written) :
    State × List Out :=
  let (s, ok) := saveAs s c (.preset id) w
  if ok then
    let (s, out) := call env s (.preset id) answer
    (s, .saved (.preset id) c.files :: out)
  else (s, [.error])

/-- `PySwitchUI.js:460-491`: save to an existing preset. -/
def savePreset (env : Env) (s : State) (id : String) (answer : Question → Bool) (w : Written) : State × List Out :=
  match s.config with
  | none => (s, [.error])
  | some c =>
    if !answer (.overwrite id) then (s, [.asked (.overwrite id) false])
    else
      let (s, out) := saveToPreset env s c id answer w
      (s, .asked (.overwrite id) true :: out)

/-- `PySwitchUI.js:460-491`: save to a new preset. -/
def saveNewPreset (env : Env) (s : State) (names : List String) (answer : Question → Bool) (w : Written) :
    State × List Out :=
  match s.config with
  | none => (s, [.error])
  | some c =>
    match newName s.store.presets names with
    | none => (s, [])
    | some id => saveToPreset env s c id answer w

/-- The user selects a directory. (`LocalFolderSelection.js:6-22, 51-53`.) -/
def chooseFolder (s : State) (dir : Nat) : State := { s with store := { s.store with handle := some dir } }

/-- Another program writes both files of a folder. -/
def writeFolder (s : State) (dir : Nat) (f : Files) : State :=
  { s with store := { s.store with folders := fun d => if d = dir then some f else s.store.folders d } }

/-- `PySwitchUI.js:495-522`: save to a directory the user selects. -/
def saveFolder (env : Env) (s : State) (dir : Nat) (answer : Question → Bool) (w : Written) : State × List Out :=
  match s.config with
  | none => (s, [.error])
  | some c =>
    let (s, ok) := saveAs (chooseFolder s dir) c .folder w
    if ok then
      let (s, out) := callFolder env s answer
      (s, .saved .folder c.files :: out)
    else (s, [.error])

/-- `PySwitchUI.js:383-391`: open a directory the user selects. -/
def openFolder (env : Env) (s : State) (dir : Nat) (answer : Question → Bool) : State × List Out :=
  callFolder env (chooseFolder s dir) answer

/-- Another program writes files into a folder. (`LocalFolderConfiguration.js:134-159`.) -/
def folderChanged (env : Env) (s : State) (dir : Nat) (f : Files) (answer : Question → Bool) : State × List Out :=
  if s.observed = some dir then callFolder env { writeFolder s dir f with observed := none } answer
  else (writeFolder s dir f, [])

/-- What can happen. `restart` is a restart without changes, as after changing the settings of the emulator
(`EmulatorSettings.js:298-306`); `navigate` is a change of the location by the browser (back, forward, or the address). -/
inductive Ev where
  | type (t : Tab) (x : String)
  | apply (t : Tab)
  | edit (f : Files)
  | restart
  | upload (i d : Option String)
  | save (w : Written)
  | saveDevice (port : String) (confirm : Bool) (answer : Question → Bool) (w : Written)
  | savePreset (id : String) (answer : Question → Bool) (w : Written)
  | saveNewPreset (names : List String) (answer : Question → Bool) (w : Written)
  | saveFolder (dir : Nat) (answer : Question → Bool) (w : Written)
  | open (p : Place) (answer : Question → Bool)
  | openFolder (dir : Nat) (answer : Question → Bool)
  | navigate (p : Place)
  | folderChanged (dir : Nat) (f : Files) (answer : Question → Bool)
  | deletePreset (id : String) (answer : Question → Bool)
  | renamePreset (id new : String)

/-- One event. The change of an editor's content sets its mark (`CodeEditor.js:50-53`). -/
def step (env : Env) (s : State) : Ev → State × List Out
  | .type t x =>
    ({ s with editors := s.editors.map fun e => match t with
        | .inputs => ({ text := x, dirty := true }, e.2)
        | .display => (e.1, { text := x, dirty := true }) }, [])
  | .apply t => applyTab env s t
  | .edit f => editTree env s f
  | .restart => showConfig env s
  | .upload i d => upload env s i d
  | .save w => saveCurrent s w
  | .saveDevice port confirm answer w => saveDevice s port confirm answer w
  | .savePreset id answer w => savePreset env s id answer w
  | .saveNewPreset names answer w => saveNewPreset env s names answer w
  | .saveFolder dir answer w => saveFolder env s dir answer w
  | .open p answer => call env s p answer
  | .openFolder dir answer => openFolder env s dir answer
  | .navigate p => goTo env s p
  | .folderChanged dir f answer => folderChanged env s dir f answer
  | .deletePreset id answer =>
    if answer (.delete id) then
      ({ s with store := { s.store with presets := Workspace.deletePreset s.store.presets id } }, [.asked (.delete id) true])
    else (s, [.asked (.delete id) false])
  | .renamePreset id new =>
    ({ s with store := { s.store with presets := Workspace.renamePreset s.store.presets id new } }, [])

/-- A sequence of events, with everything that is shown. -/
def run (env : Env) (s : State) : List Ev → State × List Out
  | [] => (s, [])
  | e :: es =>
    let (s, out) := step env s e
    let (s, out') := run env s es
    (s, out ++ out')

/-- The page after opening, with the given store. -/
def init (st : Store) : State := { store := st }

end PySwitch.Workspace
