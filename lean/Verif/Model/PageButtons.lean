import Verif.Model.Properties
/-!
Model of the buttons which assign an action to a page, in the dialog with the properties of an action
(`web/htdocs/js/ui/parser/PagerProperties.js:51-92, 160-185, 229-327`).

Both inputs (`enable_callback` and `id`) are lines of text, as the types of these parameters are "any" for all actions. Updates are done at once
(the promises are not modelled). The colours of the buttons are those of `Model/PageColour.lean`, and not modelled again here.
-/
namespace PySwitch.PageButtons
open PySwitch.Properties

/-- A pager of the configuration: its name, if it has one, and its pages. (`PagerProperties.js:47-49, 275-278`; a pager without pages has none.) -/
structure Pager where
  assign : Option Text
  pages : List Page
deriving DecidableEq, Repr

/-- A button, with what it assigns. (`PagerProperties.js:262-266, 310-314`.) -/
structure Button where
  pager : Option Text
  page : Text
  text : Text
  marked : Bool := false
  visible : Bool := true
deriving DecidableEq, Repr

/-- Which action it is. (`PagerProperties.js:168, 173`.) -/
inductive Kind where
  | plain
  | pager
  | proxy
deriving DecidableEq, Repr

/-- The dialog: the two inputs (`none`: the action has no such parameter), the name of the pager itself or the pager of the proxy,
and the buttons. (`PagerProperties.js:5-8, 71-92, 170, 175`.) -/
structure Dialog where
  kind : Kind
  callback : Option Text
  id : Option Text
  own : Option Text
  buttons : List Button
deriving DecidableEq, Repr

/-- `PagerProperties.js:183-185` `stripText`, and the `||` of line 242: empty texts count as missing. -/
def pageText (p : Page) : Text :=
  match p.text with
  | none => p.id
  | some t =>
    match stripQuotes t with
    | [] => p.id
    | c :: cs => c :: cs

/-- `PagerProperties.js:241-249` `getPageText`, for the number of pagers. -/
def buttonText (pagers : Nat) (name : Option Text) (p : Page) : Text :=
  if pagers = 1 then pageText p
  else
    match name with
    | some (c :: cs) => c :: cs ++ '|' :: pageText p
    | _ => pageText p

/-- The buttons for the pages of one pager. (`PagerProperties.js:274-321`.) -/
def pagerButtons (pagers : Nat) (q : Pager) : List Button :=
  q.pages.map fun p => { pager := q.assign, page := p.id, text := buttonText pagers q.assign p }

/-- `PagerProperties.js:51-61, 237-326` `getButtons`, `#getButtons`: no buttons without pagers. -/
def buttons (pagers : List Pager) : List Button :=
  match pagers with
  | [] => []
  | _ => { pager := some (lit "None"), page := lit "None", text := lit "No Page" } :: pagers.flatMap (pagerButtons pagers.length)

/-- `PagerProperties.js:79-84` `#extractPager`: what is before the first dot. (The condition in line 81 is never met.) -/
def extractPager (t : Text) : Text := t.takeWhile (· != '.')

/-- `PagerProperties.js:165`. -/
def Dialog.selected (d : Dialog) (b : Button) : Bool := b.pager == d.callback.map extractPager && some b.page == d.id

/-- `PagerProperties.js:164-177`, for one button. -/
def Dialog.show1 (d : Dialog) (b : Button) : Button :=
  let marked := d.selected b
  let visible :=
    match d.kind with
    | .plain => b.visible
    | _ => if marked then b.visible else b.pager != d.own
  { b with marked := marked, visible := visible }

/-- `PagerProperties.js:160-178` `#updateButtons`. -/
def Dialog.update (d : Dialog) : Dialog := { d with buttons := d.buttons.map d.show1 }

/-- What an input shows after a value was set. (`ActionProperties.js:627`, `Model/Properties.lean`.) -/
def shown (v : Text) : Text := oneLine (singleQuotes v)

/-- `ActionProperties.js:371-384` `setArgument` for `enable_callback`. `none`: an exception. -/
def Dialog.setCallback (d : Dialog) (v : Text) : Option Dialog :=
  match d.callback with
  | none => none
  | some _ => some (Dialog.update { d with callback := some (shown v) })

/-- `ActionProperties.js:371-384` `setArgument` for `id`. `none`: an exception. -/
def Dialog.setId (d : Dialog) (v : Text) : Option Dialog :=
  match d.id with
  | none => none
  | some _ => some (Dialog.update { d with id := some (shown v) })

/-- `PagerProperties.js:230`: the callback of a pager. -/
def callbackOf (name : Option Text) : Text :=
  match name with
  | some (c :: cs) => c :: cs ++ lit ".enable_callback"
  | _ => lit "None"

/-- `PagerProperties.js:231`: the id of a page. -/
def idOf (page : Text) : Text :=
  match page with
  | [] => lit "None"
  | c :: cs => c :: cs

/-- `PagerProperties.js:229-232, 294-301` `#setParameters` and a click on the button of a page. After an exception, the rest is not done. -/
def Dialog.assign (d : Dialog) (name : Option Text) (page : Text) : Dialog :=
  match d.setCallback (callbackOf name) with
  | none => d
  | some d' => (d'.setId (idOf page)).getD d'

/-- `PagerProperties.js:253-260`: a click on "No Page". -/
def Dialog.noPage (d : Dialog) : Dialog := d.assign none []

/-- What the user can do. Typing a text into an input triggers an update (`ActionProperties.js:444-446, 490-491`), and so does the selection of
the pager of a proxy (`PagerProperties.js:200-202`); a new name for the action does not (`ActionPropertiesInternal.js:39-41`). -/
inductive Op where
  | click (name : Option Text) (page : Text)
  | noPage
  | typeCallback (t : Text)
  | typeId (t : Text)
  | own (t : Text)
deriving DecidableEq, Repr

/-- One step. (See `Op`.) -/
def Dialog.step (d : Dialog) : Op → Dialog
  | .click name page => d.assign name page
  | .noPage => d.noPage
  | .typeCallback t =>
    match d.callback with
    | none => d
    | some _ => Dialog.update { d with callback := some (oneLine t) }
  | .typeId t =>
    match d.id with
    | none => d
    | some _ => Dialog.update { d with id := some (oneLine t) }
  | .own t =>
    match d.kind with
    | .proxy => Dialog.update { d with own := some t }
    | _ => { d with own := some (oneLine t) }

/-- Some steps. (No code of its own.) -/
def Dialog.run (d : Dialog) (ops : List Op) : Dialog := ops.foldl Dialog.step d

/-- A new dialog. (`ActionProperties.js:35-38` `init`, `PagerProperties.js:36-45` `setup`.) -/
def fresh (kind : Kind) (callback id own : Option Text) (pagers : List Pager) : Dialog :=
  Dialog.update ⟨kind, callback, id, own, buttons pagers⟩

end PySwitch.PageButtons
