import Verif.Model.Wire

/-!
Model of the MIDI input of the emulator (`web/htdocs/python/wrappers/wrap_adafruit_midi.py`, `web/htdocs/js/midi/PythonMidiWrapper.js`): whole
messages arrive in a queue, and the MIDI library reads them into its buffer.

Left out: the MIDI monitor, which is only informed, and times without a connection to a client, where nothing arrives.
-/

namespace PySwitch.EmulatorMidi
open PySwitch.Wire

/-- `wrap_adafruit_midi.py:4-21` `read`: as many messages as there are (`cnt` is never changed). A message for which there is no room ends this,
and has been taken from the queue before. The result is what is read and the queue. -/
def read (room : Nat) : List (List Nat) → List Nat × List (List Nat)
  | [] => ([], [])
  | m :: q => if m.length > room then ([], q) else (m ++ (read room q).1, (read room q).2)

/-- The queue (`PythonMidiWrapper.js:6`), the buffer of the library (`adafruit_midi/__init__.py:76`) and all messages which `receive()` has
returned. -/
structure State where
  queue : List (List Nat) := []
  buf : List Nat := []
  out : List Msg := []
deriving Repr, DecidableEq

/-- What happens: a message arrives, or `receive()` is called. -/
inductive Ev where
  | arrive (bytes : List Nat)
  | poll
deriving Repr, DecidableEq

/-- `PythonMidiWrapper.js:22-26`, and `adafruit_midi/__init__.py:117-146` `receive` with this input. The size of the buffer is 100
(`PySwitchRunner.py:120`). -/
def State.step (channels : List Nat) (size : Nat) (s : State) : Ev → State
  | .arrive bytes => { s with queue := s.queue ++ [bytes] }
  | .poll =>
    let r := if s.buf.length < size then read (size - s.buf.length) s.queue else ([], s.queue)
    let x := receive channels size s.buf r.1
    { queue := r.2, buf := x.2, out := s.out ++ x.1.toList }

/-- A history. -/
def run (channels : List Nat) (size : Nat) (s : State) (es : List Ev) : State := es.foldl (State.step channels size) s

end PySwitch.EmulatorMidi
