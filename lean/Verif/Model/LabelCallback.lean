import Verif.Model.Properties
/-!
Model of the callback of a label in the display editor (`web/htdocs/js/ui/editors/display/types/DisplayLabelTypeParameterList.js:45-149`).
-/
namespace PySwitch.LabelCallback
open PySwitch.Properties (Text lit Param defaultValue)

/-- The value of the argument `callback` of a label: code, or a call with its arguments. -/
inductive Val where
  | code (t : Text)
  | call (name : Text) (args : List (Text × Text))
deriving DecidableEq, Repr

/-- A callback of `web/htdocs/definitions/callbacks.json`. -/
structure Definition where
  name : Text
  params : List Param
deriving DecidableEq, Repr

/-- `web/htdocs/js/model/parser/Parser.js:471-484` `getCallbackDefinition`, for all clients. -/
def getDefinition (defs : List Definition) (name : Text) : Option Definition := defs.find? fun d => d.name == name

/-- `DisplayLabelTypeParameterList.js:67`: the text of the input. (jQuery `val` sets an empty text for `undefined`.) -/
def shown : Option Val → Text
  | none => lit "None"
  | some (.code _) => []
  | some (.call n _) => n

/-- `DisplayLabelTypeParameterList.js:137-145`: only the parameters without default. -/
def required (d : Definition) : List (Text × Text) :=
  (d.params.filter fun p => p.default = none).map fun p => (p.name, (defaultValue p).getD [])

/-- `DisplayLabelTypeParameterList.js:111-149` `#setCallback`: the new value of the argument. -/
def setCallback (defs : List Definition) (current : Option Val) (name : Text) : Option Val :=
  let unchanged := match current with
    | some (.call n _) => n == name
    | _ => false
  if unchanged then current
  else if name = [] then some (.code (lit "None"))
  else
    match getDefinition defs name with
    | none => some (.call name [])
    | some d => some (.call name (required d))

end PySwitch.LabelCallback
