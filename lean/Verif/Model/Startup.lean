import Verif.Model.Label
import Verif.Model.Misc
import Verif.Model.Simple

/-!
Model of the start of the device: `content/boot.py`, `content/lib/pyswitch/process.py`, and the memory
check in `content/lib/pyswitch/controller/controller.py`.
-/

namespace PySwitch.Startup

/-- The file system after booting. (`content/boot.py:10-35`.) -/
structure Drive where
  /-- The host sees a USB drive. -/
  usbDrive : Bool := true
  /-- The program on the device can write files. (CircuitPython mounts the file system read-only for
  the program, unless it is told otherwise.) -/
  writable : Bool := false
deriving Repr, DecidableEq

/-- `content/boot.py:10-35`, for the level of the pin of the switch 1. -/
def boot (level : Bool) : Drive :=
  if (Simple.pushed (some level)).getD false then {}
  else { usbDrive := false, writable := true }

/-- The steps of `process.py` which run code of other modules, each of which may raise an
exception. -/
inductive Step where
  /-- `process.py:19-20` -/
  | showDisplay
  /-- `process.py:23`: the file `config.py`. -/
  | loadConfig
  /-- `process.py:27-29` -/
  | loadModules
  /-- `process.py:32`: the file `communication.py`. -/
  | loadCommunication
  /-- `process.py:36-48` -/
  | openMidi (bridge : Bool)
  /-- `process.py:52`: the file `display.py`. -/
  | loadDisplays
  /-- `process.py:53`: the file `inputs.py`. -/
  | loadInputs
  /-- `process.py:56-67` -/
  | createController
  /-- `process.py:70` -/
  | initController
  /-- `process.py:73`, counted from 0 -/
  | tick (n : Nat)
  /-- `process.py:85-104` -/
  | createExplorer
  /-- `process.py:107` -/
  | initExplorer
  /-- `process.py:110`, counted from 0 -/
  | exploreTick (n : Nat)
deriving Repr, DecidableEq

/-- The values of `config.py` which are used here (`process.py:25, 36, 77`). -/
structure Config where
  exploreMode : Bool := false
  enableMidiBridge : Bool := false
deriving Repr, DecidableEq

/-- How it ends: an exception which is raised to the interpreter, one which is passed to the MIDI
bridge, or not within the number of ticks considered (`tick()` always returns `True`). (`process.py:50-80`.) -/
inductive End (E : Type) where
  | raised (e : E)
  | bridged (e : E)
  | running
deriving Repr, DecidableEq

/-- Some steps one after the other, up to the first exception. The first component is what has been
tried. (No code of its own: the order of statements in `process.py`.) -/
def perform {E : Type} (fails : Step → Option E) : List Step → List Step × Option E
  | [] => ([], none)
  | s :: rest =>
    match fails s with
    | some e => ([s], some e)
    | none => let r := perform fails rest; (s :: r.1, r.2)

/-- `process.py:50-80`: the `try` block. -/
def tried {E : Type} (fails : Step → Option E) (bridge : Bool) (steps : List Step) : List Step × End E :=
  let r := perform fails steps
  match r.2 with
  | none => (r.1, .running)
  | some e => (r.1, if bridge then .bridged e else .raised e)

/-- `content/lib/pyswitch/process.py`, for `ticks` rounds of the processing loop. `fails` tells which
steps raise an exception. Simplification: what the bridge does with an exception is not modelled. -/
def process {E : Type} (fails : Step → Option E) (c : Config) (ticks : Nat) : List Step × End E :=
  let head := perform fails [.showDisplay, .loadConfig]
  match head.2 with
  | some e => (head.1, .raised e)
  | none =>
    if c.exploreMode then
      let r := perform fails ([.createExplorer, .initExplorer] ++ (List.range ticks).map .exploreTick)
      (head.1 ++ r.1, match r.2 with | some e => .raised e | none => .running)
    else
      let r := perform fails [.loadModules, .loadCommunication, .openMidi c.enableMidiBridge]
      match r.2 with
      | some e => (head.1 ++ r.1, .raised e)
      | none =>
        let b := tried fails c.enableMidiBridge
          ([.loadDisplays, .loadInputs, .createController, .initController] ++
            (List.range ticks).map .tick)
        (head.1 ++ r.1 ++ b.1, b.2)

/-! ### The memory check -/

/-- `content/lib/pyswitch/controller/controller.py:67, 129-133`: the flag `low_memory_warning` after
`init`, for the option `memoryWarnLimitBytes` and the free memory. -/
def lowMemoryWarning (config : Option (List (String × Int))) (free : Int) : Bool :=
  free < getOption config "memoryWarnLimitBytes" (1024 * 15)

open PySwitch.Label in
/-- A label of a running application, with texts being set to it
(`content/lib/pyswitch/ui/elements.py:184-198`). It has been initialised before the memory has been
checked (`controller.py:125-133`). -/
def labelAfter (wrap : Option (String → String)) (l : LabelState) (warning : Bool) (texts : List String) :
    LabelState :=
  texts.foldl (fun l t => l.setText wrap t warning) (l.init wrap false)

end PySwitch.Startup
