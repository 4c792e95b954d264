import Verif.Model.Routing
/-
From the bytes coming in at one MIDI device to the bytes going out at another one: the device wrappers
`hardware/adafruit/AdafruitDinMidiDevice.py` and `AdafruitUsbMidiDevice.py` (which are alike) around the MIDI library
(`Model/Wire.lean`) and the routings (`Model/Routing.lean`).
-/
namespace PySwitch.Thru
open PySwitch.Wire PySwitch.Routing

/-- `AdafruitDinMidiDevice.py:7-30`: the parameters of a device. `channels` are the channels it listens to (all 16 for
`in_channel = None`, `adafruit_midi/__init__.py:93-102`). -/
structure Device where
  channels : List Nat := List.range 16
  outChannel : Nat := 0
  bufSize : Nat := 100
deriving Repr, DecidableEq

/-- `AdafruitDinMidiDevice.py:35-39` `send`: the bytes written. Unknown events are not sent; `MIDI.send` replaces the channel
of the message with the one of the device. -/
def Device.write (d : Device) (m : Msg) : List Nat :=
  match m with
  | .unknown _ => []
  | m => toBytes d.outChannel m

/-- What the calls of `receive()` of the devices answer, if the bytes `bytes d` are in the input buffer of each device `d`
from the beginning. `n` calls are enough for what is of interest; further ones answer nothing.
(No code of its own: the environment: `AdafruitDinMidiDevice.py:41-42`.) -/
def reads (devices : Nat → Device) (bytes : Nat → List Nat) (n : Nat) : Reads :=
  fun d => (Wire.receives (devices d).channels (devices d).bufSize n (bytes d)).1

/-- The bytes a device writes due to some effects of the routings. (`AdafruitDinMidiDevice.py:35-39`.) -/
def written (devices : Nat → Device) (t : Nat) : List Eff → List Nat
  | [] => []
  | .send d m :: es => (if d = t then (devices t).write m else []) ++ written devices t es
  | .read _ _ _ :: es => written devices t es

/-- `n` calls of `receive()` of the MIDI controller: the bytes written by device `t`.
(No code of its own: repeated `midi.py:69-79`.) -/
def thru (devices : Nat → Device) (bytes : Nat → List Nat) (rs : List Routing) (n t : Nat) : List Nat :=
  written devices t (Routing.receives rs n (reads devices bytes n)).2.2

end PySwitch.Thru
