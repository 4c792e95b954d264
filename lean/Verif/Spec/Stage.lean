import Verif.Model.Stage
import Verif.Spec.Synced

/-!
What foot switches and device have to do with each other.
-/

namespace PySwitch.Stage.Spec
open PySwitch PySwitch.Kemper PySwitch.Kemper.Synced.Spec PySwitch.Stage

/-- The device knows that PySwitch is there. -/
def Connected (s : Stage) : Prop := s.dev.proto.parameterSet = some 2

/-- The value of the parameter at an address, at the device. -/
def device (s : Stage) (page number : Nat) : Nat := s.dev.num (.nrpn [page, number])

/-- PySwitch asks for all values until the device is connected, and the connection is not lost. -/
def Proper (s : Stage) (e : Ev) : Prop :=
  (∀ flags lease, e = .beacon flags lease → s.dev.proto.parameterSet = none → flags % 2 = 1) ∧
  (Connected s → Connected (step s e))

/-- The history is proper, and `C` holds for all states, including the last one. -/
def Along (C : Stage → Prop) : Stage → List Ev → Prop
  | s, [] => C s
  | s, e :: es => C s ∧ Proper s e ∧ Along C (step s e) es

/-- There is an effect in the slot `k` of the device. (All values have 14 bits.) -/
def Loaded (k : Nat) (s : Stage) : Prop :=
  Effects.categoryOf (some (device s (50 + k) 0 : Int)) ≠ 0 ∧ device s (50 + k) 0 < 16384 ∧ device s (50 + k) 3 < 16384

/-- The value of the tuner mode has 14 bits. -/
def Fits (s : Stage) : Prop := device s 127 126 < 16384

/-- No report of the parameter is under way to PySwitch. -/
def Reported (page number : Nat) (s : Stage) : Prop := ∀ b ∈ s.toApp, ¬Answering page number b

/-- No message for the parameter (a control change with this number) is under way to the device. -/
def Delivered (control : Nat) (s : Stage) : Prop := ∀ b ∈ s.toDev, b.take 2 ≠ [176, control]

end PySwitch.Stage.Spec
