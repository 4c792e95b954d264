import Verif.Model.Misc
/-
Model of `PushButtonAction` (`content/lib/pyswitch/controller/actions/__init__.py:197-314`).
-/
namespace PySwitch.PushButton

/-- `controller/actions/__init__.py:199-209`, the modes (`mode` in the configuration; other values do nothing, like NO_STATE_CHANGE). -/
inductive Mode where
  | enable | disable | latch | momentary | momentaryInverse | holdMomentary | oneShot | noStateChange
deriving Repr, DecidableEq

/-- `controller/actions/__init__.py:220-230`: state and hold period. -/
structure State where
  state : Bool := false
  period : PeriodCounter
deriving Repr, DecidableEq

/-- The constructor, `controller/actions/__init__.py:220-230`. -/
def initial (holdTime : Int) : State := { period := ⟨holdTime, 0⟩ }

/-- What the action does to its callback: `changed s` is `state_changed_by_user()` called while the state is
`s`; `display` is `update_displays()`; `cbReset` is `reset()`. (`controller/actions/__init__.py:239-249, 291-314`.) -/
inductive Eff where
  | changed (s : Bool)
  | display
  | cbReset
deriving Repr, DecidableEq

/-- What happens to the action. In the course of `state_changed_by_user` and `update_displays`, the callback may
feed back a state (`feedback_state`), for example the one it reads from the device value: `fb` is the last state
fed back in that way, if the callback is called. Each call takes one clock reading.
(`controller/actions/__init__.py:239-314`.) -/
inductive Event where
  | push (now : Int) (fb : Option Bool)
  | release (now : Int) (fb : Option Bool)
  | feedback (s : Bool)
  | reset (fb : Option Bool)
deriving Repr, DecidableEq

/-- `controller/actions/__init__.py:239-249`, the setter of `state`. -/
def setState (st : State) (s : Bool) (fb : Option Bool) : State × List Eff :=
  if s = st.state then (st, [])
  else ({ st with state := fb.getD s }, [.changed s, .display])

/-- `controller/actions/__init__.py:258-288` `push`. (`LATCH` starts a second `if` chain in the code, which makes no difference.) -/
def push (mode : Mode) (st : State) (now : Int) (fb : Option Bool) : State × List Eff :=
  match mode with
  | .enable => setState st true fb
  | .disable => setState st false fb
  | .latch => setState st (!st.state) fb
  | .momentary => setState st true fb
  | .momentaryInverse => setState st false fb
  | .holdMomentary => setState { st with period := st.period.reset now } (!st.state) fb
  | .oneShot => setState { st with state := false } true fb
  | .noStateChange => (st, [])

/-- `controller/actions/__init__.py:291-308` `release`. -/
def release (mode : Mode) (st : State) (now : Int) (fb : Option Bool) : State × List Eff :=
  match mode with
  | .momentary => setState st false fb
  | .momentaryInverse => setState st true fb
  | .holdMomentary =>
    let e := st.period.exceeded now
    if e.1 then setState { st with period := e.2 } (!st.state) fb else ({ st with period := e.2 }, [])
  | .oneShot => ({ st with state := fb.getD false }, [.display])
  | _ => (st, [])

/-- `controller/actions/__init__.py:254-255` `feedback_state` and 311-314 `reset` as well. -/
def step (mode : Mode) (st : State) : Event → State × List Eff
  | .push now fb => push mode st now fb
  | .release now fb => release mode st now fb
  | .feedback s => ({ st with state := s }, [])
  | .reset fb => ({ st with state := fb.getD false }, [.cbReset, .display])

/-- A history of events: the effects of each one and the final state. (No code of its own: a history of `step`.) -/
def run (mode : Mode) : State → List Event → List (List Eff) × State
  | st, [] => ([], st)
  | st, e :: es =>
    let r := step mode st e
    let rest := run mode r.1 es
    (r.2 :: rest.1, rest.2)

end PySwitch.PushButton
