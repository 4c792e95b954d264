import Verif.Model.HardwareList
/-! Specification for the list of inputs in the editor. -/

namespace PySwitch.Spec.HardwareList
open PySwitch.HardwareList PySwitch.Devices

/-- The shipped devices: the names of the constants, and the table of the inputs. -/
inductive Shipped : List String → List Input → Prop
  | ten : Shipped constants10 midicaptain10
  | six : Shipped constants6 midicaptainMini6
  | four : Shipped constants4 midicaptainNano4

/-- A dictionary with a model describes an input. -/
def describes : Value → Bool
  | .dict (some _) _ => true
  | _ => false

/-- The module describes exactly these inputs, in any order, and has any other attributes. -/
def ModuleOf (names : List String) (inputs : List Input) (m : List (String × Value)) : Prop :=
  (m.filter fun a => describes a.2).Perm (names.zip (inputs.map dictOf))

/-- What is shown for an input of the tables. -/
def titleOf (i : Input) : String :=
  match i.kind with
  | .switch => "Switch " ++ i.name
  | .pot => i.name ++ " (Pedal)"
  | .encoder => i.name ++ " (Encoder)"

/-- The class of the hardware. -/
def classOf : Kind → String
  | .switch => "AdafruitSwitch"
  | .pot => "AdafruitPotentiometer"
  | .encoder => "AdafruitEncoder"

end PySwitch.Spec.HardwareList
