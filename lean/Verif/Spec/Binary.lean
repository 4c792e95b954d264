import Verif.Model.Binary
/-
Specification vocabulary for on/off parameters.
-/
namespace PySwitch.Binary

/-- The documented meaning of the comparison modes (`controller/callbacks/__init__.py:68-77`): is a parameter with
this value on? Without a value it is off. (NO_STATE_CHANGE is not a comparison.) -/
def IsOn (m : Compare) (reference : Int) : Option Int → Prop
  | none => False
  | some v =>
    match m with
    | .equal => v = reference
    | .greater => reference < v
    | .greaterEqual => reference ≤ v
    | .less => v < reference
    | .lessEqual => v ≤ reference
    | .noStateChange => False

instance (m : Compare) (r : Int) (v : Option Int) : Decidable (IsOn m r v) := by
  unfold IsOn
  split
  · infer_instance
  · cases m <;> simp only <;> infer_instance

/-- The values seen in a history, in order. -/
def received : List Op → List Int
  | [] => []
  | .value (some v) :: h => v :: received h
  | .toggle (some v) :: h => v :: received h
  | .shot (some v) :: h => v :: received h
  | .enable (some v) :: h => v :: received h
  | _ :: h => received h

/-- The last value received for which the parameter was off. -/
def lastOff (m : Compare) (reference : Int) (h : List Op) : Option Int :=
  ((received h).filter (fun v => decide (¬ IsOn m reference (some v)))).getLast?

/-- The settings among the effects. -/
def sets : List Eff → List (Bool × Sent)
  | [] => []
  | .set d v :: es => (d, v) :: sets es
  | _ :: es => sets es

/-- What the LEDs show after some effects: color, and bright or dimmed. -/
def leds : Option (Nat × Bool) → List Eff → Option (Nat × Bool)
  | s, [] => s
  | _, .led c b :: es => leds (some (c, b)) es
  | s, _ :: es => leds s es

/-- What the label background shows after some effects: color, and bright or dimmed. -/
def label : Option (Nat × Bool) → List Eff → Option (Nat × Bool)
  | s, [] => s
  | _, .label c b :: es => label (some (c, b)) es
  | s, _ :: es => label s es

/-- The text shown after some effects: the normal text or the one for the disabled state. -/
def text : Option Bool → List Eff → Option Bool
  | s, [] => s
  | _, .text b :: es => text (some b) es
  | s, _ :: es => text s es

end PySwitch.Binary
