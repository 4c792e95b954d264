import Verif.Model.Properties
import Verif.Model.Checks
/-!
Model of the icons the editor shows for the actions of an input (`web/htdocs/js/ui/parser/ParserFrontendIcons.js:18-73, 108-134`), as they are used in
`web/htdocs/js/ui/parser/ParserFrontendInput.js:101-116`. The colours of the pages are those of `Model/PageIcons.lean`.

Simplified: definitions are the lists of their parameters; the pages of a pager (which are no text) are left out of the arguments.
-/
namespace PySwitch.ActionIcons
open PySwitch.Properties (Text lit Param defaultValue)
open PySwitch.Editor.Checks (splitDot)

/-- An action of the configuration. Arguments without name have none. (`web/htdocs/js/model/parser/ParserInputAction.js:5-22, 79-101`.) -/
structure Call where
  name : Text
  args : List (Option Text × Text)
  assign : Option Text := none
deriving DecidableEq, Repr

/-- `ParserInputAction.js:106-116` `argument`. -/
def Call.argument (c : Call) (name : Text) : Option Text := (c.args.find? fun a => a.1 == some name).map (·.2)

/-- A value which is there, and not an empty text or `None`. (`ParserInputAction.js:57, 60`, `ParserFrontendIcons.js:31, 57`.) -/
def given (v : Option Text) : Bool :=
  match v with
  | none => false
  | some t => t != [] && t != lit "None"

/-- `ParserInputAction.js:53-66` `pager`. -/
def Call.pager (c : Call) : Option Text :=
  if !given (c.argument (lit "enable_callback")) then none
  else if !given (c.argument (lit "id")) then none
  else match splitDot ((c.argument (lit "enable_callback")).getD []) with
    | [p, _] => some p
    | _ => none

/-- `ParserInputAction.js:71-74` `page`. -/
def Call.page (c : Call) : Option Text :=
  match c.pager with
  | some (_ :: _) => c.argument (lit "id")
  | _ => none

/-- `ParserInputAction.js:28-41` `#determineDefinitionName`; `assignments` are the variables of the file with the names of the calls they get. -/
def definitionName (assignments : List (Text × Text)) (name : Text) : Option Text :=
  match splitDot name with
  | [a, f] => (assignments.find? fun e => e.1 == a).map fun e => e.2 ++ ['.'] ++ f
  | _ => none

/-- `ParserFrontendIcons.js:130-134` `#getParameterDefault`; `none` (undefined) if there is no such parameter. -/
def parameterDefault (params : List Param) (name : Text) : Option Text :=
  match params.find? fun p => p.name == name with
  | some p => defaultValue p
  | none => none

/-- `ParserFrontendIcons.js:111-125` `#usesLeds`. -/
def usesLeds (c : Call) (params : Option (List Param)) : Bool :=
  match c.argument (lit "use_leds") with
  | some (x :: xs) => x :: xs == lit "True"
  | _ => match params with
    | none => false
    | some ps => parameterDefault ps (lit "use_leds") == some (lit "True")

/-- The icons. (`ParserFrontendIcons.js:21-70`.) -/
inductive Icon where
  | leds
  | display (name : Text)
  | page (pager page : Text)
  | callback
  | assign
deriving DecidableEq, Repr

/-- `ParserFrontendIcons.js:18-73` `get`. -/
def icons (c : Call) (params : Option (List Param)) : List Icon :=
  let leds := if usesLeds c params then [Icon.leds] else []
  let display := match c.argument (lit "display") with
    | some d => if given (some d) then [Icon.display d] else []
    | none => []
  let page := match c.page, c.pager with
    | some (x :: xs), some p => [Icon.page p (x :: xs)]
    | _, _ => if given (c.argument (lit "enable_callback")) then [Icon.callback] else []
  let assign := match c.assign with
    | some (_ :: _) => [Icon.assign]
    | _ => []
  leds ++ display ++ page ++ assign

/-- The icons in the list of actions: the definition is searched by the name of the call. (`ParserFrontendInput.js:113`.) -/
def shown (lookup : Text → Option (List Param)) (c : Call) : List Icon := icons c (lookup c.name)

/-- The definition of the text in the list of actions: it is searched by the definition name, if there is one. (`ParserFrontendInput.js:64-67`.) -/
def textDefinition (assignments : List (Text × Text)) (lookup : Text → Option (List Param)) (c : Call) : Option (List Param) :=
  lookup ((definitionName assignments c.name).getD c.name)

end PySwitch.ActionIcons
