import Verif.Model.Wheel
import Verif.Spec.Encoder
/-
What the user of an encoder with preselection expects, in terms of what they do (turn, press, hold) and see (the values
previewed by the encoder).
-/
namespace PySwitch.Wheel

/-- The value previewed at the moment: the latest one, unless the preview has been ended since. -/
def previewed : Option Int → List Encoder.Eff → Option Int
  | p, [] => p
  | _, .preview v :: es => previewed (some v) es
  | _, .previewReset _ :: es => previewed none es
  | p, _ :: es => previewed p es

/-- What the user knows: the time since when the button is down, if the hold time is over in the current press, and the
previewed value. -/
structure Seen where
  down : Option Int := none
  over : Bool := false
  value : Option Int := none
deriving Repr, DecidableEq

/-- Does the event end a short press? -/
def Seen.short (H : Int) (s : Seen) : Ev → Bool
  | .button b => !b.pushed && !s.over && (match s.down with
    | some t => decide (b.now - t ≤ H)
    | none => false)
  | _ => false

/-- Is it the event with which a press becomes a long one? -/
def Seen.long (H : Int) (s : Seen) : Ev → Bool
  | .button b => !s.over && (match s.down with
    | some t => decide (b.now - t > H)
    | none => false)
  | _ => false

/-- The knowledge after an event in which the encoder has done `es`. -/
def Seen.next (H : Int) (s : Seen) (e : Ev) (es : List Encoder.Eff) : Seen :=
  match e with
  | .button b =>
    if b.pushed then
      match s.down with
      | none => ⟨some b.now, false, previewed s.value es⟩
      | some t => ⟨some t, s.over || s.long H e, previewed s.value es⟩
    else ⟨none, false, previewed s.value es⟩
  | _ => { s with value := previewed s.value es }

def Seen.after (H : Int) : Seen → List Ev → List (List Encoder.Eff) → Seen
  | s, e :: es, o :: os => (s.next H e o).after H es os
  | s, _, _ => s

/-- The values which should be sent in each event. -/
def Seen.expected (H : Int) : Seen → List Ev → List (List Encoder.Eff) → List (List Int)
  | s, e :: es, o :: os =>
    (match e with
      | .button b => if s.short H e && b.enabled 0 then s.value.toList else []
      | _ => []) :: (s.next H e o).expected H es os
  | _, _, _ => []

/-- No override is installed on the button. -/
def Ev.free : Ev → Bool
  | .button b => b.override.isNone
  | _ => true

end PySwitch.Wheel
