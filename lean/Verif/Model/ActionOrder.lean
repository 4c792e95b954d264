import Verif.Model.Browser
import Verif.Model.Properties
/-!
Model of the order of the actions in the dialog for choosing one (`web/htdocs/js/ui/parser/ActionsProvider.js:57-72`, `web/htdocs/js/model/parser/FunctionMeta.js:16-18, 24-29, 54-68`,
`web/htdocs/clients/kemper/KemperFunctionMeta.js:42-55`, `web/htdocs/clients/boomerang/BoomerangClient.js:23-25`, `web/htdocs/js/model/Client.js:96-98`, `web/htdocs/js/ui/popups/BrowserPopup.js:130-147`).

The comparison of texts (`localeCompare`) is a parameter. The names in the list are not modelled here.
-/
namespace PySwitch.ActionOrder
open PySwitch.Properties (Text lit)

/-- `web/htdocs/clients/ClientFactory.js:9-16`. -/
inductive Client where
  | kemper
  | boomerang
  | loc
deriving Repr, DecidableEq

/-- What is known about an action: its client, the name of the function, the category in the metadata (missing: empty), and the short name which is shown. (`FunctionMeta.js:5-18`.) -/
structure Action where
  client : Client
  name : Text
  data : Text
  short : Text
deriving Repr, DecidableEq

/-- `FunctionMeta.js:16-18` `getCategory`. -/
def Action.category (a : Action) : Text := if a.data = [] then lit "none" else a.data

/-- `FunctionMeta.js:54-68` `getSortString`. -/
def generalSort (name : Text) : Text :=
  if (lit "PagerAction").isPrefixOf name then lit "ZZZZZ_900_" ++ name
  else if name = lit "BINARY_SWITCH" then lit "ZZZZZ_010"
  else if name = lit "EncoderAction" then lit "ZZZZZ_010"
  else if name = lit "AnalogAction" then lit "ZZZZZ_010"
  else if name = lit "PARAMETER_UP_DOWN" then lit "ZZZZZ_020"
  else if name = lit "HID_KEYBOARD" then lit "ZZZZZ_040"
  else if name = lit "ENCODER_BUTTON" then lit "ZZZZZ_050"
  else if name = lit "CUSTOM_MESSAGE" then lit "ZZZZZ_100"
  else if name = lit "ROTATING_MESSAGES" then lit "ZZZZZ_110"
  else name

/-- `KemperFunctionMeta.js:42-55` `getSortString`, with the display name of `FunctionMeta.js:28` and `KemperClient.js:9-11`. -/
def kemperSort (category short : Text) : Text :=
  if category = lit "rig" then lit "a" ++ (lit "Kemper: " ++ short)
  else if category = lit "bank" then lit "b" ++ (lit "Kemper: " ++ short)
  else if category = lit "effects" then lit "e"
  else if category = lit "tuner" then lit "f"
  else if category = lit "none" then lit "m"
  else if category = lit "looper" then lit "w"
  else category

/-- `ActionsProvider.js:62` with `Client.js:96-98`, `BoomerangClient.js:23-25`. -/
def clientSort : Client → Text
  | .loc => lit "ZZZZZZZZZZZZ"
  | .boomerang => lit "YYY_boomerang"
  | .kemper => lit "kemper"

/-- `ActionsProvider.js:62`. -/
def Action.sort (a : Action) : Text := clientSort a.client ++ (lit "_" ++ match a.client with
  | .kemper => kemperSort a.category a.short
  | _ => generalSort a.name)

/-- The list. (`BrowserPopup.js:130-147`.) -/
def listed (le : Text → Text → Bool) (actions : List Action) : List Action := Browser.sorted (fun x y => le x.sort y.sort) actions

end PySwitch.ActionOrder
