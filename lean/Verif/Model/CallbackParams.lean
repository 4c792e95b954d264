import Verif.Model.Properties
/-!
Model of the settings of callbacks in the display editor (`web/htdocs/js/ui/editors/display/DisplayCallbackParameterList.js`, with
`web/htdocs/js/ui/misc/ParameterList.js:399-427`): the callback of a label (`types/DisplayLabelType.js:94-98`) and the display driver
(`DisplayParameters.js:157-164`). Parameters and their types are those of `Model/Properties.lean`.

Simplified: arguments are pairs of name and code (arguments without name are refused when the code is read,
`web/htdocs/python/parser/SplashesExtractor.py:9-13`); only visible parameters with texts as values.
-/
namespace PySwitch.CallbackParams
open PySwitch.Properties (Text lit Ty Param intText parseInt defaultValue typeOf values)

/-- The arguments of a callback, in their order. -/
abbrev Args := List (Text × Text)

/-- What an input of the browser holds: a checkbox, a text (also of numbers, colours and selections), or nothing selected. (No code of
its own: HTML, for `ParameterList.js:101-137`.) -/
inductive Input where
  | check (on : Bool)
  | text (t : Text)
  | nothing
deriving DecidableEq, Repr

/-- `Tools.js:143-150` `getArgument`, the value. -/
def getArgument (args : Args) (name : Text) : Option Text := (args.find? fun a => a.1 == name).map (·.2)

/-- The text of a number of JavaScript, `NaN` for none. (`ParameterList.js:423`.) -/
def numberText (n : Option Int) : Text :=
  match n with
  | some n => intText n
  | none => lit "NaN"

/-- `ParameterList.js:421-427` `unconvertValue`: the code for an input. (A checkbox always has a truth value, the others a text.) -/
def unconvert (ty : Option Ty) (i : Input) : Text :=
  match ty, i with
  | some .int, .text t => ['"'] ++ numberText (parseInt t) ++ ['"']
  | some .bool, .check on => if on then lit "True" else lit "False"
  | _, .text t => t
  | _, _ => []

/-- `DisplayCallbackParameterList.js:31-38` `getCurrentValue`: the code of the argument, or the default, also if it is empty. -/
def current (p : Param) (args : Args) : Text :=
  match getArgument args p.name with
  | some (c :: cs) => c :: cs
  | _ => (defaultValue p).getD []

/-- `DisplayCallbackParameterList.js:37`, `ParameterList.js:410-416` `convertValue`, and what the input shows for it: an input for numbers is empty for
`NaN`; a selection has only its options (`DisplayCallbackParameterList.js:72-77`). -/
def convert (p : Param) (code : Text) : Input :=
  match typeOf p with
  | some .int =>
    match parseInt code with
    | some n => .text (intText n)
    | none => .text []
  | some .bool => .check (code == lit "True")
  | some .select => if code ∈ (values p).getD [] then .text code else .nothing
  | _ => .text code

/-- The input of a parameter when the settings are opened. (`DisplayCallbackParameterList.js:66-86`.) -/
def shown (p : Param) (args : Args) : Input := convert p (current p args)

/-- The value of the first argument with this name is replaced. (`Tools.js:143-150`, `DisplayCallbackParameterList.js:54`.) -/
def setFirst (name code : Text) : Args → Args
  | [] => []
  | a :: as => if a.1 = name then (name, code) :: as else a :: setFirst name code as

/-- `DisplayCallbackParameterList.js:40-56` `setCurrentValue`. -/
def change (p : Param) (i : Input) (args : Args) : Args :=
  let code := unconvert (typeOf p) i
  let args := if getArgument args p.name = none then args ++ [(p.name, [])] else args
  if some code = defaultValue p then args.filter fun a => a.1 != p.name else setFirst p.name code args

/-- A history of changes. (No code of its own.) -/
def changes (args : Args) : List (Param × Input) → Args
  | [] => args
  | (p, i) :: es => changes (change p i args) es

end PySwitch.CallbackParams
