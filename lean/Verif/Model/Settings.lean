import Verif.Model.Misc

/-!
Model of the settings of the emulator, from which `config.py` is generated (`web/htdocs/js/model/ConfigFile.js`,
`web/htdocs/js/ui/misc/EmulatorSettings.js`, `web/htdocs/templates/config-template.py`), and of the places where the firmware reads them.

Simplifications: numbers are rational numbers, and written and read without loss (JavaScript writes the shortest text which is read as the
same number). In the template, comments and white space are left out: it is a list of entries.
-/

namespace PySwitch.Settings

/-- What can be stored: the dialog knows check boxes and numbers; what is not a number is stored as `null` in JSON.
(`web/htdocs/js/ui/misc/EmulatorSettings.js:339-362`, `web/htdocs/js/misc/LocalState.js:27-37`.) -/
inductive Val where
  | bool (b : Bool)
  | num (x : Rat)
  | null
deriving DecidableEq

/-- Contents of a field of the dialog: a check box, or a number field with the number which `parseInt` or `parseFloat` reads from it, if there
is one. (For `EmulatorSettings.js:340-355`.) -/
inductive Field where
  | check (b : Bool)
  | number (x : Option Rat)
deriving DecidableEq

/-- `EmulatorSettings.js:339-357` `#setConfigFromInput`: the value of a field. `NaN` becomes `null` in JSON. -/
def Field.value : Field → Val
  | .check b => .bool b
  | .number (some x) => .num x
  | .number none => .null

/-- The settings object, as stored. (`ConfigFile.js:34-46`.) -/
abbrev Data := List (String × Val)

/-- `data[name] = value` in JavaScript, for `ConfigFile.js:66`. -/
def assign (name : String) (value : Val) : Data → Data
  | [] => [(name, value)]
  | (n, v) :: r => if n = name then (n, value) :: r else (n, v) :: assign name value r

/-- `ConfigFile.js:14-31`: the defaults of the editor. -/
def defaults : Data :=
  [("maxConsecutiveMidiMessages", .num 10), ("clearBuffers", .bool true), ("maxRequestLifetimeMillis", .num 2000),
    ("memoryWarnLimitBytes", .num (1024 * 15)), ("updateInterval", .num 200), ("displayDimFactorOn", .num 1),
    ("displayDimFactorOff", .num (2 / 10)), ("ledBrightnessOn", .num (3 / 10)), ("ledBrightnessOff", .num (2 / 100)),
    ("exploreMode", .bool false), ("debugStats", .bool false), ("debugStatsInterval", .num 2000),
    ("debugBidirectionalProtocol", .bool false), ("debugUnparsedMessages", .bool false), ("debugSentMessages", .bool false),
    ("debugClientStats", .bool false)]

/-- `EmulatorSettings.js:108-267`: the fields of the dialog, and whether they are check boxes. -/
def fields : List (String × Bool) :=
  [("updateInterval", false), ("maxConsecutiveMidiMessages", false), ("clearBuffers", true), ("maxRequestLifetimeMillis", false),
    ("memoryWarnLimitBytes", false), ("displayDimFactorOn", false), ("displayDimFactorOff", false), ("ledBrightnessOn", false),
    ("ledBrightnessOff", false), ("exploreMode", true), ("debugStats", true), ("debugStatsInterval", false),
    ("debugBidirectionalProtocol", true), ("debugUnparsedMessages", true), ("debugSentMessages", true), ("debugClientStats", true)]

/-- What is done in the dialog: a field is changed (`EmulatorSettings.js:339-362`), or all are reset (`EmulatorSettings.js:311-319`). -/
inductive Change where
  | choose (name : String) (field : Field)
  | reset
deriving DecidableEq

/-- `ConfigFile.js:51-58` `getAttribute`. -/
def getAttribute (data : Data) (name : String) : Val :=
  match data.lookup name with
  | some v => v
  | none => (defaults.lookup name).getD .null

/-- `ConfigFile.js:63-69` `setAttribute`. -/
def setAttribute (data : Data) (name : String) (value : Val) : Data := assign name value data

/-- The settings after a change. (`EmulatorSettings.js:313, 357`.) -/
def change (data : Data) : Change → Data
  | .choose name field => setAttribute data name field.value
  | .reset => []

/-- The settings after some changes, starting with none. (`ConfigFile.js:37-39`.) -/
def run (history : List Change) : Data := history.foldl change []

/-- JavaScript: a Boolean as number, for `==` in `ConfigFile.js:86`. -/
def ofBool (b : Bool) : Rat := if b then 1 else 0

/-- JavaScript `==`, for `ConfigFile.js:86`. -/
def looseEq : Val → Val → Bool
  | .bool a, .bool b => a == b
  | .bool a, .num y => ofBool a == y
  | .num x, .bool b => x == ofBool b
  | .num x, .num y => x == y
  | .null, .null => true
  | _, _ => false

/-- `ConfigFile.js:84-87` `isDefault`. -/
def isDefault (parameter : String) (value : Val) : Bool :=
  match defaults.lookup parameter with
  | none => false
  | some d => looseEq d value

/-- An entry of the template, or of the file made from it: a token, an entry, or an entry which is commented out. (For
`config-template.py:7-65` and `ConfigFile.js:106`.) -/
inductive Line where
  | token (name : String)
  | active (name : String) (value : Val)
  | commented (name : String) (value : Val)
deriving DecidableEq

/-- `config-template.py:7-65`. -/
def template : List Line :=
  [.token "maxConsecutiveMidiMessages", .token "clearBuffers", .token "maxRequestLifetimeMillis", .token "updateInterval",
    .token "memoryWarnLimitBytes", .active "enableMidiBridge" (.bool true), .token "displayDimFactorOn", .token "displayDimFactorOff",
    .token "ledBrightnessOn", .token "ledBrightnessOff", .token "debugStats", .token "debugStatsInterval",
    .token "debugBidirectionalProtocol", .token "debugUnparsedMessages", .token "debugSentMessages", .token "debugClientStats",
    .token "exploreMode"]

/-- `ConfigFile.js:101-107`: what is put in place of a token. (`convertValue`, `ConfigFile.js:92-96`, is in `pyValue`.) -/
def entryFor (data : Data) (parameter : String) : Line :=
  let value := getAttribute data parameter
  if isDefault parameter value then .commented parameter value else .active parameter value

/-- `String.replace` in JavaScript, which replaces the first occurrence only, for `ConfigFile.js:106`. -/
def replaceFirst (parameter : String) (by' : Line) : List Line → List Line
  | [] => []
  | l :: r => if l = .token parameter then by' :: r else l :: replaceFirst parameter by' r

/-- `ConfigFile.js:74-124` `render`. -/
def render (data : Data) : List Line :=
  let t := data.foldl (fun t e => replaceFirst e.1 (entryFor data e.1) t) template
  defaults.foldl (fun t e => if data.any (·.1 = e.1) then t else replaceFirst e.1 (entryFor data e.1) t) t

/-- Values in Python. (No code of its own.) -/
inductive PyVal where
  | bool (b : Bool)
  | num (x : Rat)
  | none
deriving DecidableEq

/-- The value of the code which is written for a value (`ConfigFile.js:92-96`): there is no `null` in Python. -/
def pyValue : Val → Option PyVal
  | .bool b => some (.bool b)
  | .num x => some (.num x)
  | .null => Option.none

/-- What Python makes of the file: the dictionary `Config`, or an exception. A token which was not replaced is no Python code.
(For the file as a whole, see `config-template.py:7-65`.) -/
def loadConfig : List Line → Option (List (String × PyVal))
  | [] => some []
  | .token _ :: _ => none
  | .commented _ _ :: r => loadConfig r
  | .active n v :: r =>
    match pyValue v, loadConfig r with
    | some p, some c => some ((n, p) :: c)
    | _, _ => none

/-- What Pyodide makes of a value of JavaScript, for `web/htdocs/python/PySwitchRunner.py:41` (`to_py`). -/
def toPy : Val → PyVal
  | .bool b => .bool b
  | .num x => .num x
  | .null => .none

/-- The dictionary with which the emulator runs the firmware: the settings themselves (`web/htdocs/js/PySwitchRunner.js:398`,
`web/htdocs/python/PySwitchRunner.py:41, 151`). -/
def emulated (data : Data) : List (String × PyVal) := data.map fun e => (e.1, toPy e.2)

/-- `content/lib/pyswitch/misc.py:7-12` `get_option`, for the dictionary `Config`. -/
def readOption (config : List (String × PyVal)) (name : String) (default : PyVal) : PyVal := PySwitch.getOption (some config) name default

/-- A place where the firmware reads an option, with the default there. -/
structure Read where
  place : String
  name : String
  default : List (String × PyVal) → PyVal

/-- The interval of the statistics of the controller, `content/lib/pyswitch/controller/controller.py:60`: the default is the update interval. -/
def intervalRead : Read := ⟨"controller.py:60", "debugStatsInterval", fun c => readOption c "updateInterval" (.num 200)⟩

/-- All other places where the firmware reads an option of the dialog: `process.py:25`, `controller.py:48, 51, 54, 67, 70`,
`client.py:260, 261, 265, 267, 275, 529`, `callbacks/__init__.py:177-194`, `bank_select.py:98-100`, `rig_up_down.py:109`, `bank_up_down.py:123-134`,
`rig_select.py:128-130` (all in `content/lib/pyswitch`). -/
def reads : List Read :=
  [⟨"process.py:25", "exploreMode", fun _ => .bool false⟩,
    ⟨"controller.py:48", "updateInterval", fun _ => .num 200⟩,
    ⟨"controller.py:51", "maxConsecutiveMidiMessages", fun _ => .num 10⟩,
    ⟨"controller.py:54", "debugStats", fun _ => .bool false⟩,
    ⟨"controller.py:67", "memoryWarnLimitBytes", fun _ => .num (1024 * 15)⟩,
    ⟨"controller.py:70", "clearBuffers", fun _ => .bool true⟩,
    ⟨"client.py:260", "debugUnparsedMessages", fun _ => .bool false⟩,
    ⟨"client.py:261", "debugSentMessages", fun _ => .bool false⟩,
    ⟨"client.py:265", "debugClientStats", fun _ => .bool false⟩,
    ⟨"client.py:267", "debugStatsInterval", fun _ => .num 2000⟩,
    ⟨"client.py:275", "maxRequestLifetimeMillis", fun _ => .num 2000⟩,
    ⟨"client.py:529", "debugBidirectionalProtocol", fun _ => .bool false⟩,
    ⟨"callbacks/__init__.py:177, 184; bank_up_down.py:125", "displayDimFactorOn", fun _ => .num 1⟩,
    ⟨"callbacks/__init__.py:179, 182; bank_select.py:98; bank_up_down.py:123; rig_select.py:128", "displayDimFactorOff", fun _ => .num (2 / 10)⟩,
    ⟨"callbacks/__init__.py:187, 194; bank_select.py:100; rig_up_down.py:109; bank_up_down.py:131, 133; rig_select.py:130", "ledBrightnessOn",
      fun _ => .num (3 / 10)⟩,
    ⟨"callbacks/__init__.py:189, 192; bank_select.py:99; bank_up_down.py:130, 134; rig_select.py:129", "ledBrightnessOff", fun _ => .num (2 / 100)⟩]

end PySwitch.Settings
