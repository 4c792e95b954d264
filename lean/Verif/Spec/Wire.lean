import Verif.Model.Wire
/-
What a well-formed MIDI message is, independent of the parser.
-/
namespace PySwitch.Wire.Spec
open PySwitch.Wire

/-- 7-bit data. -/
def Data7 (l : List Nat) : Prop := ∀ b ∈ l, b < 128

/-- A message that can be sent and parsed: 7-bit fields, channel 0..15, and for SysEx a manufacturer id in
its canonical MIDI form (one non-zero byte, or a zero byte followed by two bytes). -/
def Valid : Msg → Prop
  | .cc control value (some ch) => control < 128 ∧ value < 128 ∧ ch < 16
  | .pc patch (some ch) => patch < 128 ∧ ch < 16
  | .sysex [a] data => 0 < a ∧ a < 128 ∧ Data7 data
  | .sysex [0, a, b] data => a < 128 ∧ b < 128 ∧ Data7 data
  | _ => False

/-- The MIDI 1.0 byte representation of a message. -/
def wire : Msg → List Nat
  | .cc control value (some ch) => [176 + ch, control, value]
  | .pc patch (some ch) => [192 + ch, patch]
  | .sysex m d => 240 :: (m ++ d ++ [247])
  | _ => []

/-- The byte stream of a list of messages. -/
def stream (ms : List Msg) : List Nat := (ms.map wire).flatten

/-- Is the message for one of the listened channels? SysEx messages have no channel. -/
def Heard (channels : List Nat) : Msg → Bool
  | .cc _ _ (some ch) => channels.contains ch
  | .pc _ (some ch) => channels.contains ch
  | _ => true

/-- Channel messages (everything but SysEx). -/
def IsChannelMsg : Msg → Prop
  | .cc _ _ _ => True
  | .pc _ _ => True
  | _ => False

/-- Position `n` of the byte stream of `ms` is not strictly inside a SysEx message. -/
def CutOk : List Msg → Nat → Prop
  | [], _ => True
  | m :: ms, n =>
    if n < (wire m).length then n = 0 ∨ IsChannelMsg m else CutOk ms (n - (wire m).length)

end PySwitch.Wire.Spec
