import Verif.Model.Properties

/-!
Model of the dialog with the general settings of a switch (`web/htdocs/js/ui/parser/InputSettings.js`, `web/htdocs/js/ui/misc/ParameterList.js`), with
the handles to the tree of the configuration (`web/htdocs/js/model/parser/ParserTreeElement.js`, `ParserInput.js`, `Parser.js`,
`web/htdocs/js/ui/parser/ParserFrontend.js`, `ParserFrontendInput.js`) and the restart (`web/htdocs/js/Controller.js`).

The values of both options are simple source code. Reading the source code which has been written gives the same values again, see C115.
Left out: the other parts of the configuration, and what is only shown.
-/

namespace PySwitch.InputSettings
open PySwitch.Properties (Text lit intText parseInt stripQuotes isNumber)

/-- The options of a switch in the configuration, as source code. (`content/lib/pyswitch/controller/inputs.py:24-25`.) -/
structure Opts where
  time : Option Text := none
  rep : Option Text := none
deriving DecidableEq

/-- `ParserInput.js:44-49` `holdTimeMillis`; `none` is null or `NaN`. -/
def Opts.holdTime (o : Opts) : Option Int :=
  match o.time with
  | none => none
  | some t => if t = [] then none else parseInt (stripQuotes t)

/-- `ParserInput.js:64-69` `holdRepeat`; null counts as false. -/
def Opts.holdRepeat (o : Opts) : Bool := o.rep == some (lit "True")

/-- `"" + parseInt(htm)`. (`ParserInput.js:57`.) -/
def timeCode (t : Text) : Text :=
  match parseInt t with
  | some n => intText n
  | none => lit "NaN"

/-- `ParserInput.js:77`. -/
def repeatCode (b : Bool) : Text := lit (if b then "True" else "False")

/-- What the dialog shows for the hold time: 600 for nothing, `NaN` and 0. (`InputSettings.js:29, 47`.) -/
def shownTime (o : Option Opts) : Int :=
  match o.bind Opts.holdTime with
  | some n => if n = 0 then 600 else n
  | none => 600

/-- `InputSettings.js:34`. -/
def shownRepeat (o : Option Opts) : Bool :=
  match o with
  | some o => o.holdRepeat
  | none => false

/-- The dialog: the switch, whether it has a handle (null if the configuration did not have this switch) and for which tree, and what is in the
inputs. (`InputSettings.js:9-13`, `ParserTreeElement.js:15-28`.) -/
structure Dialog where
  input : Nat
  handle : Option Nat
  time : Text
  rep : Bool
deriving DecidableEq

/-- The state: the options of the switches in the configuration (`none`: not there), the number of the tree which is in memory (a new one each time
the configuration has been written, `Parser.js:89-94, 249`), the number of the tree for which the switches are shown, with the handles at that
time, restarts which are due, and whether the last change has ended with an error message. -/
structure State where
  code : Nat → Option Opts
  tree : Nat := 0
  shownTree : Nat := 0
  shown : Nat → Bool
  dialog : Option Dialog := none
  restarts : Nat := 0
  failed : Bool := false

/-- What happens. `time` and `rep` are changes of the inputs by the user; `restarted` is the end of a restart (a timer,
`Controller.js:222-246`). -/
inductive Ev where
  | openFor (n : Nat)
  | close
  | time (t : Text)
  | rep (b : Bool)
  | restarted
deriving DecidableEq

/-- `ParserTreeElement.js:25-28` `checkValid`, and the access to a handle which is null (`InputSettings.js:36, 52`). -/
def State.valid (s : State) (d : Dialog) : Bool := d.handle == some s.tree

/-- `ParserInput.js:54-59, 74-79`, `Parser.js:235-250` and the restart which is started after it. -/
def State.put (s : State) (n : Nat) (f : Opts → Opts) : State :=
  { s with code := fun k => if k = n then (s.code k).map f else s.code k, tree := s.tree + 1, restarts := s.restarts + 1, failed := false }

def State.step (s : State) : Ev → State
  -- `ParserFrontendInput.js:512-544`; the values are read with the handle, which must be valid
  | .openFor n =>
    if s.shown n && s.shownTree != s.tree then { s with failed := true }
    else
      let o := if s.shown n then s.code n else none
      { s with dialog := some ⟨n, if s.shown n then some s.shownTree else none, intText (shownTime o), shownRepeat o⟩, failed := false }
  | .close => { s with dialog := none }
  -- `InputSettings.js:51-57`: the input holds the text in any case; a number input only holds numbers or nothing
  | .time t =>
    match s.dialog with
    | none => s
    | some d =>
      let t := if isNumber t then t else []
      let s := { s with dialog := some { d with time := t } }
      if s.valid d then s.put d.input fun o => { o with time := some (timeCode t) } else { s with failed := true }
  -- `InputSettings.js:35-41`
  | .rep b =>
    match s.dialog with
    | none => s
    | some d =>
      let s := { s with dialog := some { d with rep := b } }
      if s.valid d then s.put d.input fun o => { o with rep := some (repeatCode b) } else { s with failed := true }
  -- `Controller.js:234`, `PySwitchFrontend.js:37-70`, `ParserFrontend.js:29-37`: all switches get new handles
  | .restarted =>
    match s.restarts with
    | 0 => s
    | k + 1 => { s with restarts := k, shownTree := s.tree, shown := fun n => (s.code n).isSome }

def State.run (s : State) (es : List Ev) : State := es.foldl State.step s

/-- A configuration has been loaded. (`PySwitchUI.js:622-640`.) -/
def loaded (code : Nat → Option Opts) : State := { code, shown := fun n => (code n).isSome }

end PySwitch.InputSettings
