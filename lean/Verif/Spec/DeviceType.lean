import Verif.Model.DeviceType
/-!
Which device a configuration is for, and what it means to fit into an area.
-/
namespace PySwitch.DeviceType.Spec
open PySwitch.DeviceType

/-- A file of lines. -/
def fileOf : List (List Char) → List Char
  | [] => []
  | l :: ls => l ++ '\n' :: fileOf ls

/-- The line imports the inputs of a device. -/
def Imports (line : List Char) (d : Device) : Prop := ∃ names, line = "from ".toList ++ d.importPath ++ " import ".toList ++ names

/-- The line contains the name of the module of a device, be it in a comment. -/
def Mentions (line : List Char) (d : Device) : Prop := d.importPath <:+: line

/-- `num / den ≤ n`. -/
def Fits (f : Factor) (n : Nat) : Prop := f.num ≤ n * f.den

/-- `num / den = n`. -/
def Fills (f : Factor) (n : Nat) : Prop := f.num = n * f.den

end PySwitch.DeviceType.Spec
