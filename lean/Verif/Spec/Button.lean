import Verif.Spec.Switch
import Verif.Spec.PushButton
import Verif.Spec.Binary
import Verif.Spec.Client
import Verif.Model.Button
/-
What a foot switch for an on/off parameter is expected to do as a whole.
-/
namespace PySwitch.Button.Spec
open PySwitch PySwitch.Wire PySwitch.Button

/-- The presses in a history of a switch, with the times at which it was seen down and up again. -/
def presses : List Switch.Spec.Block → List PushButton.Spec.Press
  | [] => []
  | .idle _ :: bs => presses bs
  | .press p :: bs => ⟨p.first.now, p.last.now⟩ :: presses bs

/-- A history in which the action of the switch is enabled all the time. -/
def Undisturbed (bs : List Switch.Spec.Block) : Prop :=
  ∀ b ∈ bs, b.Ok ∧ ∀ s ∈ b.samples, s.override = none ∧ s.enabled 0 = true

/-- A Kemper parameter is set to a value below 128: manufacturer 00 20 33, product 2, all devices, function 1, instance 0, page,
number, value in two bytes. -/
def setBytes (page number value : Nat) : List Nat :=
  [0xF0, 0x00, 0x20, 0x33, 0x02, 0x7F, 0x01, 0x00, page, number, 0, value, 0xF7]

/-- The events which are under control of the user and the code (nobody uses the front panel of the device). -/
def NoKnob (es : List Ev) : Prop := ∀ e ∈ es, ∀ v, e ≠ .knob v

/-- Nothing is on its way and nobody waits. -/
def Quiet (w : World) : Prop := w.toDevice = [] ∧ w.fromDevice = [] ∧ w.pending = false

instance (w : World) : Decidable (Quiet w) := by unfold Quiet; infer_instance

/-- The parameter is on in the device. -/
def DeviceOn (c : Config) (w : World) : Prop := Binary.IsOn c.callback.compare c.callback.reference (some w.device)

/-- No message of the one side is sent while one of the other side is still on its way. -/
def NoCrossing (c : Config) : World → List Ev → Prop
  | _, [] => True
  | w, e :: es =>
    (match e with
      | .knob _ => w.toDevice = []
      | .push _ => w.fromDevice = []
      | .release _ => w.fromDevice = []
      | _ => True) ∧ NoCrossing c (happen c w e) es

end PySwitch.Button.Spec
