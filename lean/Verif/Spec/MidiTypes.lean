import Verif.Model.MidiTypes
/-!
What MIDI messages look like, independently of the implementation. (MIDI 1.0 specification.)
-/
namespace PySwitch.MidiTypes

/-- The messages which can be sent: data bytes have seven bits. -/
def Valid : Msg → Prop
  | .two _ a b _ => a < 128 ∧ b < 128
  | .one _ a _ => a < 128
  | .bend v _ => v < 16384
  | .sysex m d => ((∃ x, m = [x] ∧ x ≠ 0 ∧ x < 128) ∨ ∃ a b, m = [0, a, b] ∧ a < 128 ∧ b < 128) ∧ ∀ x ∈ d, x < 128
  | .mtc t v => t < 8 ∧ v < 16
  | .single _ => True
  | .unknown _ => False
  | .bad _ => False

/-- The type of a message. -/
def Msg.cls : Msg → Option Cls
  | .two .noteOff _ _ _ => some .noteOff
  | .two .noteOn _ _ _ => some .noteOn
  | .two .keyPressure _ _ _ => some .keyPressure
  | .two .cc _ _ _ => some .cc
  | .one .pc _ _ => some .pc
  | .one .chanPressure _ _ => some .chanPressure
  | .bend _ _ => some .bend
  | .sysex _ _ => some .sysex
  | .mtc _ _ => some .mtc
  | .single .clock => some .clock
  | .single .start => some .start
  | .single .continue => some .continue
  | .single .stop => some .stop
  | .single .sensing => some .sensing
  | .unknown _ => none
  | .bad _ => none

/-- If messages of the type have a channel. -/
def Cls.hasChannel : Cls → Bool
  | .noteOff | .noteOn | .keyPressure | .cc | .pc | .chanPressure | .bend => true
  | _ => false

/-- The bytes of a message on the wire, on a channel from 0 to 15. -/
def wire (ch : Nat) : Msg → List Nat
  | .two .noteOff a b _ => [128 + ch, a, b]
  | .two .noteOn a b _ => [144 + ch, a, b]
  | .two .keyPressure a b _ => [160 + ch, a, b]
  | .two .cc a b _ => [176 + ch, a, b]
  | .one .pc a _ => [192 + ch, a]
  | .one .chanPressure a _ => [208 + ch, a]
  | .bend v _ => [224 + ch, v % 128, v / 128]
  | .sysex m d => 240 :: (m ++ d ++ [247])
  | .mtc t v => [241, 16 * t + v]
  | .single .clock => [248]
  | .single .start => [250]
  | .single .continue => [251]
  | .single .stop => [252]
  | .single .sensing => [254]
  | .unknown _ => []
  | .bad _ => []

/-- The message as it is received. -/
def Msg.onChannel (ch : Nat) : Msg → Msg
  | .two t a b _ => .two t a b (some ch)
  | .one t a _ => .one t a (some ch)
  | .bend v _ => .bend v (some ch)
  | m => m

/-- Semitones above C of the notes A to G. -/
def semitone : Char → Option Int
  | 'C' => some 0 | 'D' => some 2 | 'E' => some 4 | 'F' => some 5 | 'G' => some 7 | 'A' => some 9 | 'B' => some 11
  | 'c' => some 0 | 'd' => some 2 | 'e' => some 4 | 'f' => some 5 | 'g' => some 7 | 'a' => some 9 | 'b' => some 11
  | _ => none

/-- Sharp, flat, or nothing. -/
inductive Accidental where
  | none | sharp | flat
deriving Repr, DecidableEq

def Accidental.text : Accidental → List Char
  | .none => [] | .sharp => ['#'] | .flat => ['b']

def Accidental.shift : Accidental → Int
  | .none => 0 | .sharp => 1 | .flat => -1

/-- The decimal digits of a number. -/
def digits (n : Nat) : List Char := if h : n < 10 then [Char.ofNat (48 + n)] else digits (n / 10) ++ [Char.ofNat (48 + n % 10)]
termination_by n
decreasing_by omega

/-- The text of an octave. -/
def octaveText : Int → List Char
  | .ofNat n => digits n
  | .negSucc n => '-' :: digits (n + 1)

end PySwitch.MidiTypes
