import Verif.Model.CallbackParams
/-!
What the settings of a callback should do, in terms of the python code of the callback.
-/
namespace PySwitch.CallbackParams.Spec
open PySwitch.Properties (Text lit Param)

/-- The code for a parameter in a call: the one of the argument, or the default of the function if there is no such argument. -/
def passed (default : Text) (name : Text) (args : List (Text × Text)) : Text :=
  match args.find? fun a => a.1 = name with
  | some a => a.2
  | none => default

/-- What the user wants: a checkbox is a truth value of python, anything else is the code itself. -/
def wanted : Input → Text
  | .check on => if on then lit "True" else lit "False"
  | .text t => t
  | .nothing => []

/-- Which inputs a user can make: a checkbox for truth values, one of the options for a selection, or any text. -/
def possible (p : Param) (i : Input) : Prop :=
  match Properties.typeOf p with
  | some .bool => ∃ on, i = .check on
  | some .select => ∃ t, i = .text t ∧ t ∈ (Properties.values p).getD []
  | _ => ∃ t, i = .text t

/-- The last input for a parameter in a history. -/
def last (name : Text) (es : List (Param × Input)) : Option Input := (es.reverse.find? fun e => e.1.name = name).map (·.2)

end PySwitch.CallbackParams.Spec
