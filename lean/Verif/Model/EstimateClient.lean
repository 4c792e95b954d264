import Verif.Model.Checks
/-!
Model of how the web application decides which client a configuration is for (`web/htdocs/clients/ClientFactory.js:9-34`), and what depends on it: the protocol which is run
(`web/htdocs/js/PySwitchRunner.js:396-406`), the search for the device and the virtual device (`web/htdocs/js/ClientController.js:55-58, 86-89, 141-161`).

Simplified: clients are their names; of the protocols and detectors only the existence counts.
-/
namespace PySwitch.EstimateClient
open PySwitch.Editor.Checks (includes)

abbrev Text := List Char

/-- The classes of clients. (`ClientFactory.js:11-13`.) -/
inductive Client where
  | kemper
  | boomerang
  | base
deriving DecidableEq, Repr

/-- `ClientFactory.js:9-16` `getInstance`; `none` is `null`. -/
def getInstance (clientId : Text) : Option Client :=
  if clientId = "kemper".toList then some .kemper
  else if clientId = "boomerang".toList then some .boomerang
  else if clientId = "local".toList then some .base
  else none

/-- `ClientFactory.js:21-34` `estimateClient`; the parameter is the file of inputs. -/
def estimateClient (inputs : Text) : Text :=
  if includes "pyswitch.clients.kemper".toList inputs then "kemper".toList
  else if includes "pyswitch.clients.boomerang".toList inputs then "boomerang".toList
  else "kemper".toList

/-- Is there a protocol? (`KemperClient.js:17-23`, `js/model/Client.js:33-35`.) -/
def Client.hasProtocol : Client → Bool
  | .kemper => true
  | _ => false

/-- Can devices be detected? (`KemperClient.js:42-44`, `js/model/Client.js:54-56`.) -/
def Client.hasDetector : Client → Bool
  | .kemper => true
  | _ => false

/-- The client which is run; `none` would be an exception. (`PySwitchRunner.js:396`, `ClientController.js:87-89`.) -/
def clientFor (inputs : Text) : Option Client := getInstance (estimateClient inputs)

/-- The name after which the virtual device is chosen if no port answers, and the client which is found for it again. (`ClientController.js:57, 141-144`.) -/
def virtualName (inputs : Text) : Text := "virtual-".toList ++ estimateClient inputs

/-- `ClientController.js:141-144`. -/
def virtualClient (name : Text) : Option Client :=
  if "virtual".toList.isPrefixOf name then getInstance (name.drop 8) else none

end PySwitch.EstimateClient
