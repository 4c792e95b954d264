import Verif.Model.Devices
/-!
Model of the list of inputs of a device in the configuration editor (`web/htdocs/python/parser/PySwitchHardware.py`,
`web/htdocs/js/model/parser/Parser.js`).

Simplified: the module is given by its attributes, in the order of `dir`, each with an object of its own. It is imported anew with each call
(the modules which have been loaded are forgotten with the patch), so the replacement of the models is not visible afterwards.
-/

namespace PySwitch.HardwareList
open PySwitch.Devices (Input Kind)

/-- The object in `"model"`: the name of its class, and its attributes `port` and `port_1`, if any. (`PySwitchHardware.py:41-52`.) -/
structure Model where
  cls : String
  port : Option Nat := none
  port1 : Option Nat := none
deriving Repr, DecidableEq

/-- An attribute of the module: a dictionary, maybe with the keys `"model"` and `"name"`, or something else.
(`PySwitchHardware.py:29-41`.) -/
inductive Value where
  | dict (model : Option Model) (name : Option String)
  | other
deriving Repr, DecidableEq

/-- An entry of the list: `name`, `data.model.type`, `data.model.port`, `data.name` and `displayName`. (`PySwitchHardware.py:31-57`.) -/
structure Entry where
  name : String
  type : String
  port : Option Nat
  dataName : Option String
  displayName : String
deriving Repr, DecidableEq

/-- `PySwitchHardware.py:47-52`. -/
def portOf (m : Model) : Option Nat :=
  match m.port with
  | some p => some p
  | none => m.port1

/-- `PySwitchHardware.py:62-72` `_display_name`: `none` if there is neither a name nor a port (exception). -/
def displayName (m : Model) (name : Option String) : Option String :=
  let n := match name with
    | some n => some n
    | none => (portOf m).map fun p => "GP" ++ toString p
  n.map fun n =>
    if m.cls = "AdafruitSwitch" then "Switch " ++ n
    else if m.cls = "AdafruitPotentiometer" then n ++ " (Pedal)"
    else if m.cls = "AdafruitEncoder" then n ++ " (Encoder)"
    else n

/-- `PySwitchHardware.py:15-59` `get`: `none` for an exception. -/
def listed : List (String × Value) → Option (List Entry)
  | [] => some []
  | (name, .dict (some m) n) :: rest =>
    match displayName m n with
    | none => none
    | some d => (listed rest).map fun l => ⟨name, m.cls, portOf m, n, d⟩ :: l
  | _ :: rest => listed rest

/-- `Parser.js:152-157` `getAssignmentForModel`: the entry for a name, `none` for null. -/
def assignmentFor (l : List Entry) (modelName : Option String) : Option Entry := (l.filter fun e => e.dataName == modelName).head?

/-- An input of the tables of the devices as a dictionary: `AdafruitSwitch.py:4-8`, `AdafruitPotentiometer.py:4-8`,
`AdafruitEncoder.py:4-8`. -/
def dictOf (i : Input) : Value :=
  match i.kind with
  | .switch => .dict (some { cls := "AdafruitSwitch", port := i.pins.head? }) (some i.name)
  | .pot => .dict (some { cls := "AdafruitPotentiometer", port := i.pins.head? }) (some i.name)
  | .encoder => .dict (some { cls := "AdafruitEncoder", port1 := i.pins.head? }) (some i.name)

/-- The names of the constants in `hardware/devices/pa_midicaptain_10.py:47-69`, in the order of the table. -/
def constants10 : List String := [
  "PA_MIDICAPTAIN_10_SWITCH_1", "PA_MIDICAPTAIN_10_SWITCH_2", "PA_MIDICAPTAIN_10_SWITCH_3", "PA_MIDICAPTAIN_10_SWITCH_4",
  "PA_MIDICAPTAIN_10_SWITCH_UP", "PA_MIDICAPTAIN_10_SWITCH_A", "PA_MIDICAPTAIN_10_SWITCH_B", "PA_MIDICAPTAIN_10_SWITCH_C",
  "PA_MIDICAPTAIN_10_SWITCH_D", "PA_MIDICAPTAIN_10_SWITCH_DOWN", "PA_MIDICAPTAIN_10_EXP_PEDAL_1", "PA_MIDICAPTAIN_10_EXP_PEDAL_2",
  "PA_MIDICAPTAIN_10_EXP_SWITCH_1", "PA_MIDICAPTAIN_10_EXP_SWITCH_2", "PA_MIDICAPTAIN_10_WHEEL_ENCODER",
  "PA_MIDICAPTAIN_10_WHEEL_BUTTON"]

/-- The names of the constants in `hardware/devices/pa_midicaptain_mini_6.py:32-37`. -/
def constants6 : List String := [
  "PA_MIDICAPTAIN_MINI_SWITCH_1", "PA_MIDICAPTAIN_MINI_SWITCH_2", "PA_MIDICAPTAIN_MINI_SWITCH_3", "PA_MIDICAPTAIN_MINI_SWITCH_A",
  "PA_MIDICAPTAIN_MINI_SWITCH_B", "PA_MIDICAPTAIN_MINI_SWITCH_C"]

/-- The names of the constants in `hardware/devices/pa_midicaptain_nano_4.py:30-33`. -/
def constants4 : List String := [
  "PA_MIDICAPTAIN_NANO_SWITCH_1", "PA_MIDICAPTAIN_NANO_SWITCH_2", "PA_MIDICAPTAIN_NANO_SWITCH_A", "PA_MIDICAPTAIN_NANO_SWITCH_B"]

end PySwitch.HardwareList
