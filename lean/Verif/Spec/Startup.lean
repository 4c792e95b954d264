import Verif.Model.Startup

/-!
What shall happen when the device is started.
-/

namespace PySwitch.Startup.Spec
open PySwitch.Startup

/-- The whole list of what is done, with the first `ticks` rounds of processing. In explore mode, no
configuration file other than `config.py` is used. -/
def plan (c : Config) (ticks : Nat) : List Step :=
  [.showDisplay, .loadConfig] ++
    if c.exploreMode then
      [.createExplorer, .initExplorer] ++ (List.range ticks).map .exploreTick
    else
      [.loadModules, .loadCommunication, .openMidi c.enableMidiBridge, .loadDisplays, .loadInputs,
        .createController, .initController] ++ (List.range ticks).map .tick

/-- The steps for which errors can be repaired by means of the MIDI bridge: everything done after it
has been opened. -/
def repairable : Step → Bool
  | .loadDisplays | .loadInputs | .createController | .initController | .tick _ => true
  | _ => false

end PySwitch.Startup.Spec
