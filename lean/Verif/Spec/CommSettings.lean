import Verif.Model.CommSettings
/-!
What the communication settings of the emulator are: the texts entered since the last reset.
-/
namespace PySwitch.CommSettings.Spec
open PySwitch.Properties (Text lit intText)

/-- The text which was entered last for the input channel, starting with `t`. A reset removes it. -/
def lastIn : Option Text → List Op → Option Text
  | t, [] => t
  | _, .inChannel t :: ops => lastIn (some t) ops
  | _, .reset :: ops => lastIn none ops
  | t, _ :: ops => lastIn t ops

/-- The text which was entered last for the output channel. -/
def lastOut : Option Text → List Op → Option Text
  | t, [] => t
  | _, .outChannel t :: ops => lastOut (some t) ops
  | _, .reset :: ops => lastOut none ops
  | t, _ :: ops => lastOut t ops

/-- A MIDI channel as users count it. -/
def IsChannel (n : Nat) : Prop := 1 ≤ n ∧ n ≤ 16

/-- The text means this channel. -/
def Means (t : Text) (n : Nat) : Prop := IsChannel n ∧ t = intText n

end PySwitch.CommSettings.Spec
