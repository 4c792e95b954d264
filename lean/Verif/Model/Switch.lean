import Verif.Model.Misc
/-
Model of `SwitchController` (`content/lib/pyswitch/controller/inputs.py:6-180`), the part processing pushes.

Actions are numbers (object identity). One call of `process()` gets a `Sample` from outside: the hardware
state, the clock, which actions are enabled and the installed override action. The clock is read at most twice
in one call (line 111 and line 126); the model uses one reading per call. Each action is asked for `enabled`
at most once per call, so any change of the enabled status (even caused by another action in the same call)
is covered by an arbitrary `enabled` per sample.
-/
namespace PySwitch.Switch

/-- Calls the switch makes. (`controller/inputs.py:71-154`.) -/
inductive Eff where
  | push (action : Nat)
  | release (action : Nat)
  | overridePush
  | overrideRelease
deriving Repr, DecidableEq

/-- `inputs.py:44-49`: configuration of a switch. -/
structure Config where
  actions : List Nat
  actionsHold : List Nat := []
  holdRepeat : Bool := false

/-- What the outside world shows to one `process()` call. `override` is `override_action`: `none` if not set,
otherwise what its `push()` and `release()` methods return (their truth values). (`controller/inputs.py:71-134`.) -/
structure Sample where
  pushed : Bool
  now : Int
  enabled : Nat → Bool := fun _ => true
  override : Option (Bool × Bool) := none

/-- `inputs.py:36, 45-46, 58-61`. -/
structure State where
  pushedState : Bool := false
  holdActive : Bool := false
  holdWasActive : Bool := false
  period : PeriodCounter

/-- `inputs.py:145-150`: hold click. -/
def fireHold (c : Config) (s : Sample) : List Eff :=
  (c.actionsHold.filter s.enabled).flatMap (fun a => [.push a, .release a])

/-- `inputs.py:137-154` `__check_hold`. -/
def checkHold (c : Config) (st : State) (s : Sample) : Bool × State × List Eff :=
  let e := st.period.exceeded s.now
  if e.1 then
    let st := { st with period := e.2 }
    let st := if c.holdRepeat then { st with holdWasActive := true } else { st with holdActive := false }
    (true, st, fireHold c s)
  else (false, { st with period := e.2 }, [])

/-- `inputs.py:91-101`: release the normal actions. -/
def releaseActions (c : Config) (st : State) (s : Sample) : State × List Eff :=
  ({ st with holdActive := false, holdWasActive := false },
    (c.actions.filter s.enabled).flatMap
      (fun a => if c.actionsHold ≠ [] then [.push a, .release a] else [.release a]))

/-- `inputs.py:78-101`: the local function `release()`. -/
def release (c : Config) (st : State) (s : Sample) : State × List Eff :=
  if c.actionsHold ≠ [] then
    if ¬ st.holdActive then (st, [])
    else
      let h := checkHold c st s
      if h.1 then (h.2.1, h.2.2)
      else if h.2.1.holdWasActive then
        ({ h.2.1 with holdActive := false, holdWasActive := false }, h.2.2)
      else
        let r := releaseActions c h.2.1 s
        (r.1, h.2.2 ++ r.2)
  else releaseActions c st s

/-- `inputs.py:124-134`: process all push actions. -/
def pushActions (c : Config) (st : State) (s : Sample) : State × List Eff :=
  if c.actionsHold ≠ [] then
    ({ st with period := st.period.reset s.now, holdActive := true }, [])
  else (st, (c.actions.filter s.enabled).map .push)

/-- `inputs.py:114-134`: the part of `process()` for a pushed switch after the hold check. -/
def processPushed (c : Config) (st : State) (s : Sample) : State × List Eff :=
  if st.pushedState then (st, [])
  else
    let st := { st with pushedState := true }
    match s.override with
    | some (pushResult, _) =>
      if ¬ pushResult then (st, [.overridePush])
      else
        let r := pushActions c st s
        (r.1, .overridePush :: r.2)
    | none => pushActions c st s

/-- `inputs.py:71-134` `process`. -/
def process (c : Config) (st : State) (s : Sample) : State × List Eff :=
  if ¬ s.pushed then
    if st.pushedState then
      let st := { st with pushedState := false }
      match s.override with
      | some (_, releaseResult) =>
        if releaseResult then
          let r := release c st s
          (r.1, .overrideRelease :: r.2)
        else (st, [.overrideRelease])
      | none => release c st s
    else (st, [])
  else if st.holdActive then
    let h := checkHold c st s
    if h.1 then (h.2.1, h.2.2)
    else processPushed c h.2.1 s
  else processPushed c st s

/-- A sequence of `process()` calls: the effects of each, and the final state.
(No code of its own: repeated `controller/inputs.py:71-134`.) -/
def run (c : Config) : State → List Sample → List (List Eff) × State
  | st, [] => ([], st)
  | st, s :: ss =>
    let r := process c st s
    let rest := run c r.1 ss
    (r.2 :: rest.1, rest.2)

/-- The initial state (`inputs.py:36-61`) for a hold time. -/
def initial (holdTime : Int) : State := { period := ⟨holdTime, 0⟩ }

end PySwitch.Switch
