import Verif.Model.EmulatorMidi
import Verif.Spec.Wire

/-!
What the MIDI input of the emulator is expected to do.
-/

namespace PySwitch.EmulatorMidi.Spec
open PySwitch.EmulatorMidi PySwitch.Wire PySwitch.Wire.Spec

/-- A history: messages which arrive, and `none` for a call of `receive()`. -/
abbrev History := List (Option Msg)

/-- The events. -/
def events (h : History) : List Ev := h.map fun
  | some m => .arrive (wire m)
  | none => .poll

/-- All messages which arrived. -/
def arrived (h : History) : List Msg := h.filterMap fun m => m

/-- At each call there is room for each message which waits, or no room at all, when nothing is read. -/
def Fits (channels : List Nat) (size : Nat) (h : History) : Prop :=
  ∀ before after, h = before ++ none :: after →
    (run channels size {} (events before)).buf.length < size →
    ∀ m ∈ (run channels size {} (events before)).queue, m.length ≤ size - (run channels size {} (events before)).buf.length

/-- A history in rounds: some messages arrive, then `receive()` is called some times. -/
def rounds (rs : List (List Msg × Nat)) : History := rs.flatMap fun r => r.1.map some ++ List.replicate r.2 none

end PySwitch.EmulatorMidi.Spec
