import Verif.Model.Checks
/-!
Model of how the web application finds out for which device a configuration is (`web/htdocs/js/model/Device.js:9-24`), and of the size of the preview of its display in the
display editor (`web/htdocs/js/ui/editors/display/DisplayPreview.js:67-109`).

Simplified: sizes are whole numbers of some unit; factors are fractions instead of floating point numbers.
-/
namespace PySwitch.DeviceType

/-- The supported devices. (`Device.js:12-20`.) -/
inductive Device where
  | nano4
  | mini6
  | captain10
deriving DecidableEq, Repr

/-- The module of a device. (`Device.js:12-20`.) -/
def Device.importPath : Device → List Char
  | .nano4 => "pyswitch.hardware.devices.pa_midicaptain_nano_4".toList
  | .mini6 => "pyswitch.hardware.devices.pa_midicaptain_mini_6".toList
  | .captain10 => "pyswitch.hardware.devices.pa_midicaptain_10".toList

/-- `Device.js:9-24` `getInstance`, for the contents of `inputs.py`. -/
def getInstance (inputs : List Char) : Device :=
  if Editor.Checks.includes Device.nano4.importPath inputs then .nano4
  else if Editor.Checks.includes Device.mini6.importPath inputs then .mini6
  else if Editor.Checks.includes Device.captain10.importPath inputs then .captain10
  else .captain10

/-- A factor as a fraction. (`DisplayPreview.js:104, 107`.) -/
structure Factor where
  num : Nat
  den : Nat
deriving DecidableEq, Repr

/-- `DisplayPreview.js:90-109` `#determineScaleFactor`. The comparison of the ratios is done without division; it is the same also if the height of the container is zero (then the ratio is
infinite, or not a number if the width is zero, too). -/
def scaleFactor (displayWidth displayHeight availableWidth availableHeight : Nat) : Factor :=
  if availableWidth * displayHeight > displayWidth * availableHeight then ⟨availableHeight, displayHeight⟩
  else ⟨availableWidth, displayWidth⟩

/-- A size multiplied by the factor, as a fraction. (`DisplayPreview.js:78-81`.) -/
def Factor.times (f : Factor) (size : Nat) : Factor := ⟨size * f.num, f.den⟩

end PySwitch.DeviceType
