import Verif.Model.Tuner
/-
What the tuner display should show, and what happens in tuner mode.
-/
namespace PySwitch.Tuner

/-- The deviance received last. -/
def lastDeviance : List DisplayEvent → Option Int
  | [] => none
  | .deviance v :: es => some ((lastDeviance es).getD v)
  | _ :: es => lastDeviance es

/-- The display shows this deviance: the marker is at its place, marker and note have the color for "in tune" exactly if the
value is between the calibration limits. -/
structure Shows (c : DisplayConfig) (v : Int) (st : DisplayState) : Prop where
  position : st.markerX = c.markerX v
  flag : st.isInTune = true ↔ c.low ≤ v ∧ v ≤ c.high
  marker : st.markerColor = if c.low ≤ v ∧ v ≤ c.high then c.inTune else c.outOfTune
  note : st.noteColor = some (if c.low ≤ v ∧ v ≤ c.high then c.inTune else c.outOfTune)

/-- The event belongs to this switch. -/
def OverrideEvent.isOf (k : Nat) : OverrideEvent → Bool
  | .tuner _ => false
  | .process j _ => j == k

/-- Only switches are processed; the state of the tuner does not change. -/
def OverrideEvent.isProcess : OverrideEvent → Bool
  | .tuner _ => false
  | .process _ _ => true

/-- The switch processed is down. -/
def OverrideEvent.down : OverrideEvent → Bool
  | .tuner _ => false
  | .process _ s => s.pushed

end PySwitch.Tuner
