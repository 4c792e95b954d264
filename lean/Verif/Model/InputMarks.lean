/-!
Model of the messages beside the inputs of the display editor (`web/htdocs/js/ui/editors/display/DisplayParameterList.js:61-71`, `web/htdocs/js/ui/misc/ParameterList.js:192-225, 372-395`).

Simplified: of an input, only its name, its classes for errors and warnings, and the messages beside it.
-/
namespace PySwitch.InputMarks

/-- The types of messages: `'E'`, `'W'` or another one. (`ParameterList.js:198-204`.) -/
inductive Kind where
  | error
  | warning
  | info
deriving DecidableEq, Repr

/-- A message of the node, with the name of the input it belongs to, if any. (`DisplayParameterList.js:67-70`.) -/
structure Message where
  text : String
  kind : Kind
  input : Option String
deriving DecidableEq, Repr

/-- An input, with its classes and the messages beside it. (`ParameterList.js:230-247`.) -/
structure Input where
  name : String
  error : Bool := false
  warning : Bool := false
  messages : List (String × Kind) := []
deriving DecidableEq, Repr

/-- `ParameterList.js:193-197` `clear`. -/
def Input.clear (i : Input) : Input := { i with messages := [], error := false, warning := false }

/-- `ParameterList.js:198-225` `message`, with `error`, `warn` and `log`. -/
def Input.message (i : Input) (text : String) : Kind → Input
  | .error => { i with messages := i.messages ++ [(text, .error)], warning := false, error := true }
  | .warning =>
    let i := { i with messages := i.messages ++ [(text, .warning)] }
    if !i.error then { i with warning := true } else i
  | .info => { i with messages := i.messages ++ [(text, .info)] }

/-- `ParameterList.js:386-394` `getParameter` and the call of `message`: the first input with the name, or an exception (`none`). -/
def logTo (name text : String) (k : Kind) : List Input → Option (List Input)
  | [] => none
  | i :: is => if i.name = name then some (i.message text k :: is) else (logTo name text k is).map (i :: ·)

/-- `DisplayParameterList.js:67-70`: an exception ends the loop. The second result tells if there was none. -/
def logAll : List Input → List Message → List Input × Bool
  | is, [] => (is, true)
  | is, m :: ms =>
    match m.input with
    | none => logAll is ms
    | some name =>
      match logTo name m.text m.kind is with
      | none => (is, false)
      | some is' => logAll is' ms

/-- `DisplayParameterList.js:61-71` `check`. -/
def check (inputs : List Input) (messages : List Message) : List Input × Bool := logAll (inputs.map Input.clear) messages

end PySwitch.InputMarks
