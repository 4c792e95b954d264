import Verif.Model.Properties
import Verif.Model.Wire
/-!
Model of the communication settings of the emulator: the inputs of the settings tab (`web/htdocs/js/ui/misc/EmulatorSettings.js:38-96, 298-306, 325-334, 367-384`),
what is stored (`web/htdocs/js/model/CommunicationSettings.js:1-52`, `LocalState.js`) and the MIDI device which is created from it
(`web/htdocs/python/PySwitchRunner.py:111-123`, `web/htdocs/python/adafruit_midi/__init__.py:59-121`).

Simplified: numbers are integers of any size; the storage holds the data as JSON, so a value which is not a number is stored as `null`; a restart runs to its end before the
next action (it starts after 10 ms); a configuration is loaded; the explore mode is not selected.
-/
namespace PySwitch.CommSettings
open PySwitch.Properties (Text lit intText parseInt)

/-- The stored data. The outer option of a channel is whether the key exists, the inner one whether the value is not `null`. (`CommunicationSettings.js:22-31`.) -/
structure Stored where
  inChannel : Option (Option Int)
  outChannel : Option (Option Int)
  debug : Option Bool
deriving DecidableEq, Repr

/-- `CommunicationSettings.js:22-24`: no data. -/
def Stored.empty : Stored := ⟨none, none, none⟩

/-- `CommunicationSettings.js:36-43` `getAttribute("inChannel")` with the default of line 13. -/
def Stored.getIn (s : Stored) : Option Int := s.inChannel.getD none

/-- `CommunicationSettings.js:36-43` `getAttribute("outChannel")` with the default of line 14. -/
def Stored.getOut (s : Stored) : Option Int := s.outChannel.getD (some 0)

/-- `CommunicationSettings.js:36-43` `getAttribute("debug")` with the default of line 15. -/
def Stored.getDebug (s : Stored) : Bool := s.debug.getD false

/-- `EmulatorSettings.js:373-378`: the value which is stored for a text. `parseInt` may be `NaN`, which is stored as `null`. -/
def parse (t : Text) : Option Int := if t = lit "All" then none else (parseInt t).map (· - 1)

/-- `EmulatorSettings.js:54`: what the input for the input channel shows. -/
def showIn : Option Int → Text
  | some n => intText (n + 1)
  | none => lit "All"

/-- `EmulatorSettings.js:64`: what the input for the output channel shows; `null + 1` is 1. -/
def showOut : Option Int → Text
  | some n => intText (n + 1)
  | none => intText 1

/-- The inputs of the settings tab. (`EmulatorSettings.js:53-77`.) -/
structure Form where
  inText : Text
  outText : Text
  debug : Bool
deriving DecidableEq, Repr

/-- `EmulatorSettings.js:38-96` `#getCommSettings`. -/
def form (s : Stored) : Form := ⟨showIn s.getIn, showOut s.getOut, s.getDebug⟩

/-- The MIDI device of the emulator: the channels it listens to, and the one it sends to. (`adafruit_midi/__init__.py:72-75`.) -/
structure Device where
  listens : List Nat
  sends : Nat
deriving DecidableEq, Repr

/-- `adafruit_midi/__init__.py:93-102` the setter of `in_channel`; `none` is an exception. -/
def setIn : Option Int → Option (List Nat)
  | none => some (List.range 16)
  | some c => if 0 ≤ c ∧ c ≤ 15 then some [c.toNat] else none

/-- `adafruit_midi/__init__.py:111-115` the setter of `out_channel`; `none` is an exception (comparing `None` raises, too). -/
def setOut : Option Int → Option Nat
  | none => none
  | some c => if 0 ≤ c ∧ c ≤ 15 then some c.toNat else none

/-- `PySwitchRunner.py:111`: the input channel which is passed on. -/
def givenIn (s : Stored) : Option Int :=
  match s.inChannel with
  | some c => c
  | none => none

/-- `PySwitchRunner.py:112`: the output channel which is passed on. -/
def givenOut (s : Stored) : Option Int :=
  match s.outChannel with
  | some c => c
  | none => some 0

/-- `PySwitchRunner.py:111-123`: the device is created from the stored data; `none`: the emulator is not started. -/
def start (s : Stored) : Option Device :=
  match setIn (givenIn s), setOut (givenOut s) with
  | some l, some o => some ⟨l, o⟩
  | _, _ => none

/-- The state: the storage, the inputs, and the running device if any. (No code of its own.) -/
structure State where
  stored : Stored
  form : Form
  device : Option Device
deriving DecidableEq, Repr

/-- What the user does. (`EmulatorSettings.js:55-57, 65-67, 75-77, 84-86, 91-93`; `load` opens the page again, `PySwitchUI.js:679-688`.) -/
inductive Op where
  | inChannel (t : Text)
  | outChannel (t : Text)
  | debug (b : Bool)
  | reset
  | apply
  | load
deriving DecidableEq, Repr

/-- The page is opened with this storage. (`PySwitchUI.js:679-688`, `EmulatorSettings.js:9-19`.) -/
def State.load (s : Stored) : State := ⟨s, CommSettings.form s, start s⟩

/-- `EmulatorSettings.js:367-384` `#setCommFromInput`, `298-306` `#restart` and `325-334` `#resetCommSettings`. -/
def State.step (s : State) : Op → State
  | .inChannel t => ⟨{ s.stored with inChannel := some (parse t) }, { s.form with inText := t }, s.device⟩
  | .outChannel t => ⟨{ s.stored with outChannel := some (parse t) }, { s.form with outText := t }, s.device⟩
  | .debug b => ⟨{ s.stored with debug := some b }, { s.form with debug := b }, s.device⟩
  | .reset => ⟨.empty, CommSettings.form .empty, start .empty⟩
  | .apply => ⟨s.stored, CommSettings.form s.stored, start s.stored⟩
  | .load => .load s.stored

/-- The user does several things one after another. -/
def State.run (s : State) (ops : List Op) : State := ops.foldl State.step s

/-- If a message on a channel (counted from 0) reaches the application. (`midi_message.py:38-48, 261-278`.) -/
def Device.hears (d : Device) (channel : Nat) : Bool := Wire.channelFilter channel d.listens

end PySwitch.CommSettings
