import Verif.Model.Runner

/-!
What starting and stopping the emulated controller is expected to do.
-/

namespace PySwitch.Runner.Spec
open PySwitch.Runner

/-- The call is over. -/
def Task.Finished (t : Task) : Prop := t.phase = .done ∨ t.phase = .failed

/-- Each call is made when all calls before are over. -/
def Sequential (es : List Ev) : Prop :=
  ∀ before c after, es = before ++ .call c :: after → ∀ t ∈ (run before).tasks, Task.Finished t

/-- No configuration with an error. -/
def NoInitFailure (es : List Ev) : Prop := ∀ i, .resume i .initFails ∉ es

/-- The last call. -/
def lastCall (s : State) : Option Task := s.tasks.getLast?

/-- Only timeouts fire. -/
def OnlyTimeouts (es : List Ev) : Prop := ∀ e ∈ es, ∃ k ok, e = .fire k ok

end PySwitch.Runner.Spec
