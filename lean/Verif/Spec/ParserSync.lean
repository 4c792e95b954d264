import Verif.Model.ParserSync

/-!
What the editor should do, without a parser which keeps anything: the code of the configuration is all there is.
-/

namespace PySwitch.ParserSync.Spec
open PySwitch.ParserSync

variable {C T : Type}

/-- What the code means, if python accepts both files. -/
def view (env : Env C T) (f : Files) : Option (T × T) :=
  match env.parse f.inputs, env.parse f.display with
  | some a, some b => some (env.inputsTree a, env.displayTree b)
  | _, _ => none

/-- The code after an edit of what is shown: new code from the edited trees and the present code. -/
def edited (env : Env C T) (f : Files) (g : T × T → T × T) : Option Files :=
  match env.parse f.inputs, env.parse f.display with
  | some a, some b =>
    let c := env.generate (g (env.inputsTree a, env.displayTree b)) (a, b)
    some ⟨env.print c.1, env.print c.2⟩
  | _, _ => none

/-- The code after an event, if python accepts it. -/
def next (env : Env C T) (f : Files) : Ev T → Option Files
  | .apply .inputs x => some ⟨x, f.display⟩
  | .apply .display x => some ⟨f.inputs, x⟩
  | .upload i d => some ⟨i.getD f.inputs, d.getD f.display⟩
  | .edit g => edited env f g
  | .restart => some f

/-- Python accepts both files. -/
def Good (env : Env C T) (f : Files) : Prop := (view env f).isSome

/-- The code after a sequence of events, all of which result in code which python accepts. -/
def result (env : Env C T) : Files → List (Ev T) → Option Files
  | f, [] => some f
  | f, e :: es =>
    match next env f e with
    | some f' => if (view env f').isSome then result env f' es else none
    | none => none

/-- Generated code is accepted, and means what it has been generated from. (libcst is lossless.) -/
def Lossless (env : Env C T) : Prop :=
  ∀ t c, env.parse (env.print (env.generate t c).1) = some (env.generate t c).1 ∧
    env.parse (env.print (env.generate t c).2) = some (env.generate t c).2

/-- The event brings new code from the user. -/
def NewCode : Ev T → Prop
  | .apply _ _ => True
  | .upload _ _ => True
  | _ => False

end PySwitch.ParserSync.Spec
