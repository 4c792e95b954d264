/-!
Model of the dialog for adding and editing the actions of an input: the list of actions (`web/htdocs/js/ui/parser/ActionsProvider.js:29-92`) and the dialog
(`web/htdocs/js/ui/parser/ParserFrontendInput.js:390-507`). The inputs of the properties are the subject of `Model/Properties.lean`.

Simplified: the order of the list (by the popup, `Model/Browser.lean`) and pager proxies are left out; arguments are their names.
-/
namespace PySwitch.ActionChooser

abbrev Text := List Char

/-- An action of the catalogue, with the type of hardware it is for and its parameters. (`web/htdocs/definitions/actions.json`, `meta.json`.) -/
structure Action where
  name : Text
  target : Text
  params : List Text
deriving DecidableEq, Repr

/-- An action of the configuration which is edited. (`ParserFrontendInput.js:373-380`.) -/
structure Existing where
  name : Text
  args : List Text
deriving DecidableEq, Repr

/-- The entries of the list, for the actions of each client. (`ActionsProvider.js:55-59, 81-83`.) -/
def offered (target : Text) : List (List Action) → List Action
  | [] => []
  | client :: clients => (client.filter fun a => a.target == target) ++ offered target clients

/-- `ActionsProvider.js:77-79`: the entry for a name; a later one replaces an earlier one, and no name is searched if it is empty. -/
def named (name : Text) (entries : List Action) : Option Action :=
  if name = [] then none else entries.foldl (fun found a => if a.name = name then some a else found) none

/-- `ActionsProvider.js:77-79, 86-90`: the entry which is selected at first. -/
def preselect (name : Option Text) (entries : List Action) : Option Action :=
  match entries with
  | [a] => some a
  | _ => match name with
    | some n => named n entries
    | none => none

/-- What the dialog shows beside the list. (`ParserFrontendInput.js:398-410, 452-490`.) -/
inductive Panel where
  | properties (a : Action) (of : Option Existing)
  | hint
  | sourceOnly (name : Text)
deriving DecidableEq, Repr

/-- The dialog: its panel, and if its button is there (an exception while the values are filled in ends the setup). -/
structure Dialog where
  panel : Panel
  button : Bool
deriving DecidableEq, Repr

/-- `ActionProperties.js:351-384` `setArguments`: it throws if there is no parameter for an argument. -/
def fills (a : Action) (x : Existing) : Bool := x.args.all fun n => a.params.contains n

/-- `ParserFrontendInput.js:390-507` `#promptAction`. -/
def prompt (clients : List (List Action)) (target : Text) (existing : Option Existing) : Dialog :=
  match preselect (existing.map (·.name)) (offered target clients) with
  | some a =>
    match existing with
    | some x => ⟨.properties a (some x), fills a x⟩
    | none => ⟨.properties a none, true⟩
  | none =>
    match existing with
    | some x => ⟨.sourceOnly x.name, true⟩
    | none => ⟨.hint, true⟩

/-- An entry of the list is selected. The values are taken over from the properties before where possible. (`ParserFrontendInput.js:398-410`.) -/
def Dialog.select (d : Dialog) (a : Action) : Dialog :=
  match d.panel with
  | .properties _ x => { d with panel := .properties a x }
  | _ => { d with panel := .properties a none }

/-- The button is pressed: the action which replaces the edited one or is added, if any. (`ParserFrontendInput.js:415-428, 493-504`.) -/
def Dialog.commit (d : Dialog) : Option Action :=
  if d.button then
    match d.panel with
    | .properties a _ => some a
    | _ => none
  else none

end PySwitch.ActionChooser
