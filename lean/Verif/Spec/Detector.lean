import Verif.Model.Detector

/-!
What the detection of a Kemper is expected to do.
-/

namespace PySwitch.Detector.Spec
open PySwitch.Detector

/-- The message of a Kemper which tells the value of the rig volume: SysEx of the manufacturer 0 32 51, from any product and device, with a
single value (1) for the parameter 1 on page 4. -/
def Answer (data : List Nat) : Prop :=
  ∃ product device value, data = [240, 0, 32, 51, product, device, 1, 0, 4, 1] ++ value ++ [247]

/-- The first answer, while its attempt is open, comes from the port of the attempt `i`. -/
def FirstAnswer (n : Nat) (es : List Ev) (i : Nat) : Prop :=
  ∃ before data after, es = before ++ .message i data :: after ∧ Answer data ∧ i < n ∧ Ev.timeout i ∉ before ∧
    ∀ j d b a, before = b ++ .message j d :: a → Answer d → j < n → Ev.timeout j ∈ b

/-- No port answers in time. -/
def NoAnswer (n : Nat) (es : List Ev) : Prop :=
  ∀ j d b a, es = b ++ .message j d :: a → Answer d → j < n → Ev.timeout j ∈ b

/-- SysEx messages have an end. -/
def Complete (m : List Nat) : Prop := m.head? = some 240 → m.getLast? = some 247

/-- The device gets complete messages only. -/
def Proper : Kemper.Machine.Ev → Prop
  | .receive _ _ m => Complete m
  | _ => True

end PySwitch.Detector.Spec
