import Verif.Model.Properties
/-!
Model of the settings of a tuner element in the display editor (`web/htdocs/js/ui/editors/display/types/TunerDisplayTypeParameterList.js:39-200`, with
`DisplayNode.js:497-524`). The name, position and size of the element are the subject of `Model/DisplayEditor.lean`.

Simplified: the input for the scale holds a whole number; the inputs for colours are their text.
-/
namespace PySwitch.TunerSettings
open PySwitch.Properties (Text lit isNumber)

/-- The value of an argument, as read from the code or set by the editor: code, a call, or a dictionary. (No code of its own: data of the parser.) -/
inductive Val where
  | text (code : Text)
  | call (name : Text) (args : List (Text × Text))
  | dict (entries : List (Text × Text))
deriving DecidableEq, Repr

/-- The arguments of the element, in their order. -/
abbrev Args := List (Text × Val)

/-- `DisplayNode.js:497-502` `getParameter`. -/
def getParameter (args : Args) (name : Text) : Option Val := (args.find? fun a => a.1 == name).map (·.2)

/-- The first argument with this name gets a value. (`DisplayNode.js:514-520`.) -/
def setFirst (name : Text) (v : Val) : Args → Args
  | [] => []
  | a :: as => if a.1 = name then (name, v) :: as else a :: setFirst name v as

/-- `DisplayNode.js:507-524` `setParameter`, if the value is not the default. -/
def setParameter (args : Args) (name : Text) (v : Val) : Args :=
  if getParameter args name = none then args ++ [(name, v)] else setFirst name v args

/-- `DisplayNode.js:508-510` `setParameter`, if the value is the default. -/
def removeParameter (args : Args) (name : Text) : Args := args.filter fun a => a.1 != name

/-- The settings which are code. (`TunerDisplayTypeParameterList.js:70-156`.) -/
inductive Plain where
  | height | width | zoom | inTune | outOfTune | neutral | high | low
deriving DecidableEq, Repr

/-- The name of the argument. (`TunerDisplayTypeParameterList.js:70-156`.) -/
def Plain.name : Plain → Text
  | .height => lit "deviance_height"
  | .width => lit "deviance_width"
  | .zoom => lit "deviance_zoom"
  | .inTune => lit "color_in_tune"
  | .outOfTune => lit "color_out_of_tune"
  | .neutral => lit "color_neutral"
  | .high => lit "calibration_high"
  | .low => lit "calibration_low"

/-- What is shown if there is no argument. (`TunerDisplayTypeParameterList.js:75, 86, 97, 108, 119, 130, 141, 152`.) -/
def Plain.default : Plain → Text
  | .height => lit "40"
  | .width => lit "5"
  | .zoom => lit "2.4"
  | .inTune => lit "Colors.LIGHT_GREEN"
  | .outOfTune => lit "Colors.ORANGE"
  | .neutral => lit "Colors.WHITE"
  | .high => lit "8192 + 350"
  | .low => lit "8192 - 350"

/-- The inputs of the dialog. -/
inductive Setting where
  | note
  | deviance
  | plain (k : Plain)
  | font
  | scale
deriving DecidableEq, Repr

/-- What an input shows: a text, nothing (a selection without the value), or the dialog does not open because of an exception. -/
inductive Shown where
  | value (t : Text)
  | nothing
  | error
deriving DecidableEq, Repr

/-- A selection shows one of its options. (HTML, for `ParameterList.js:114-118`.) -/
def select (options : List Text) (t : Text) : Shown := if t ∈ options then .value t else .nothing

/-- `Tools.js:105-107` `stripQuotes`. -/
def stripQuotes (t : Text) : Text := t.filter fun c => c != '"' && c != '\''

/-- `Tools.js:98-100` `autoQuote`. -/
def autoQuote (t : Text) : Text := ['\''] ++ stripQuotes t ++ ['\'']

/-- JavaScript: an object as a text. -/
def objectText : Text := lit "[object Object]"

/-- The value of an input for texts. (jQuery `val`, for `ParameterList.js:117`.) -/
def valText : Val → Text
  | .text t => t
  | _ => objectText

/-- The settings with an input for numbers. (`TunerDisplayTypeParameterList.js:71, 82, 93`.) -/
def Plain.number : Plain → Bool
  | .height => true
  | .width => true
  | .zoom => true
  | _ => false

/-- The value of an input for numbers, which is empty for anything else. (HTML, for `ParameterList.js:117`.) -/
def numberInput (t : Text) : Text := if isNumber t then t else []

/-- The value of an input when the dialog is opened. `mappings` and `fonts` are the options of the selections. (`TunerDisplayTypeParameterList.js:39-200`.) -/
def shown (mappings fonts : List Text) (args : Args) : Setting → Shown
  | .note => select mappings (valText ((getParameter args (lit "mapping_note")).getD (.text (lit "None"))))
  | .deviance =>
    match getParameter args (lit "mapping_deviance") with
    | none => select mappings (lit "None")
    | some (.text t) => select mappings (if t = lit "None" then t else lit "undefined()")
    | some (.call n _) => select mappings (n ++ lit "()")
    | some (.dict _) => select mappings (lit "undefined()")
  | .plain k =>
    let t := valText ((getParameter args k.name).getD (.text k.default))
    .value (if k.number then numberInput t else t)
  | .font =>
    match getParameter args (lit "layout") with
    | some (.dict es) =>
      match es.find? fun e => e.1 == lit "font" with
      | some e => select fonts (['"'] ++ stripQuotes e.2 ++ ['"'])
      | none => .error
    | some (.call _ es) =>
      match es.find? fun e => e.1 == lit "font" with
      | some e => select fonts (['"'] ++ stripQuotes e.2 ++ ['"'])
      | none => .error
    | _ => .nothing
  | .scale => .value (numberInput (valText ((getParameter args (lit "scale")).getD (.text (lit "1")))))

/-- An input is changed. (`TunerDisplayTypeParameterList.js:46-48, 63-65, 76-78, 87-89, 98-100, 109-111, 120-122, 131-133, 142-144, 153-155, 177-186, 197-199`.) -/
def change (args : Args) (t : Text) : Setting → Args
  | .note => setParameter args (lit "mapping_note") (.text t)
  | .deviance => setParameter args (lit "mapping_deviance") (.text t)
  | .plain k => setParameter args k.name (.text t)
  | .font => setParameter args (lit "layout") (.dict [(lit "font", autoQuote t)])
  | .scale => if t = lit "1" then removeParameter args (lit "scale") else setParameter args (lit "scale") (.text t)

end PySwitch.TunerSettings
