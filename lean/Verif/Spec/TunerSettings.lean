import Verif.Model.TunerSettings
/-!
What the settings of a tuner element mean in terms of the code of the element.
-/
namespace PySwitch.TunerSettings.Spec
open PySwitch.Properties (Text lit)

/-- The argument of a setting. -/
def argument : Setting → Text
  | .note => lit "mapping_note"
  | .deviance => lit "mapping_deviance"
  | .plain .height => lit "deviance_height"
  | .plain .width => lit "deviance_width"
  | .plain .zoom => lit "deviance_zoom"
  | .plain .inTune => lit "color_in_tune"
  | .plain .outOfTune => lit "color_out_of_tune"
  | .plain .neutral => lit "color_neutral"
  | .plain .high => lit "calibration_high"
  | .plain .low => lit "calibration_low"
  | .font => lit "layout"
  | .scale => lit "scale"

/-- The default of the setting in `content/lib/pyswitch/ui/elements.py:316-330`. -/
def default : Setting → Text
  | .plain .height => lit "40"
  | .plain .width => lit "5"
  | .plain .zoom => lit "2.4"
  | .plain .inTune => lit "Colors.LIGHT_GREEN"
  | .plain .outOfTune => lit "Colors.ORANGE"
  | .plain .neutral => lit "Colors.WHITE"
  | .plain .high => lit "8192 + 350"
  | .plain .low => lit "8192 - 350"
  | .scale => lit "1"
  | _ => lit "None"

/-- The code of a value (calls only without arguments, as for the mappings of a tuner). -/
def code : Val → Text
  | .text t => t
  | .call n _ => n ++ lit "()"
  | .dict _ => []

/-- The code the element gets for an argument, or the default. -/
def passed (args : List (Text × Val)) (name default : Text) : Text :=
  match args.find? fun a => a.1 = name with
  | some a => code a.2
  | none => default

/-- The settings whose argument is code. -/
def simple : Setting → Bool
  | .plain _ => true
  | .scale => true
  | _ => false

/-- The settings which are numbers. -/
def numeric : Setting → Bool
  | .plain .height => true
  | .plain .width => true
  | .plain .zoom => true
  | .scale => true
  | _ => false

/-- The code of a text: in quotes of either kind. -/
def Quoted (code text : Text) : Prop := code = ['"'] ++ text ++ ['"'] ∨ code = ['\''] ++ text ++ ['\'']

end PySwitch.TunerSettings.Spec
