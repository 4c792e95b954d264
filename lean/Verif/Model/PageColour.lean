import Verif.Model.Colours
import Verif.Model.PageIcons
/-!
Model of the colour of the mark of a page (`web/htdocs/js/ui/parser/ParserFrontendIcons.js:43-55, 75-91`, `web/htdocs/js/model/parser/Parser.js:309-342`): the pager is searched in all
inputs, and in its pages the one with the id of the action.

Simplified: of the actions, only the name, the variable and the pages are kept.
-/
namespace PySwitch.PageColour
open PySwitch.Properties (Text lit)
open PySwitch.Colours (resolveColor)

/-- A page of a pager; the code of its entries. (`ParserInputAction.js:121-137`.) -/
structure Page where
  id : Option Text
  color : Option Text
  text : Option Text := none
deriving DecidableEq, Repr

/-- An action with its variable and its argument `pages`. (`ParserInputAction.js:5-22, 106-137`.) -/
structure Act where
  name : Text
  assign : Option Text
  pages : Option (List Page)
deriving DecidableEq, Repr

/-- The actions of an input, for pressing and for holding. (`Parser.js:320`.) -/
structure Input where
  actions : List Act
  hold : List Act
deriving DecidableEq, Repr

/-- `Parser.js:312-329` `actions`; inputs of the hardware which are not in the file are `none`. -/
def actionsNamed (inputs : List (Option Input)) (name : Text) : List Act :=
  inputs.flatMap fun
    | none => []
    | some i => (i.actions ++ i.hold).filter fun a => a.name == name

/-- `Parser.js:334-342` `getPagerAction`. -/
def getPagerAction (inputs : List (Option Input)) (name : Text) : Option Act :=
  (actionsNamed inputs (lit "PagerAction")).find? fun a => a.assign == some name

/-- The loop `ParserFrontendIcons.js:85-90`. -/
def searchPages (page : Text) : List Page → Option Text
  | [] => none
  | p :: ps => match p.color with
    | some (c :: cs) => if p.id == some page then some (resolveColor (c :: cs)) else searchPages page ps
    | _ => searchPages page ps

/-- `ParserFrontendIcons.js:78-91` `getPageColor`. -/
def getPageColor (inputs : List (Option Input)) (pager page : Text) : Option Text :=
  match getPagerAction inputs pager with
  | none => none
  | some a => match a.pages with
    | none => none
    | some ps => searchPages page ps

/-- The mark: with a colour in CSS, or one of the given classes. (`ParserFrontendIcons.js:48-53`.) -/
inductive Mark where
  | css (color : Text)
  | numbered (id : Nat)
deriving DecidableEq, Repr

/-- `ParserFrontendIcons.js:46-53`; the state is the one of the classes in use. -/
def mark (s : PageIcons.State) (inputs : List (Option Input)) (pager page : Text) : PageIcons.State × Mark :=
  match getPageColor inputs pager page with
  | some (c :: cs) => (s, .css (lit "rgb" ++ (c :: cs)))
  | _ => ((s.color pager page).1, .numbered (s.color pager page).2)

end PySwitch.PageColour
