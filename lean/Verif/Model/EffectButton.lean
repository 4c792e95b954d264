import Verif.Model.Binary
/-
Model of the effect buttons (`content/lib/pyswitch/clients/kemper/actions/effect_button.py`), on top of the models of the
callback (`Model/Binary.lean`) and the action (`controller/actions/__init__.py`).
-/
namespace PySwitch.EffectButton
open PySwitch

/-- `effect_button.py:12-43`: the arguments. The color is a number standing for it. -/
structure Config where
  num : Nat
  internal : Bool := true
  hasLabel : Bool := true
  color : Nat := 0
deriving Repr, DecidableEq

/-- `effect_button.py:21-29`: the text for a button. (Other numbers have no text, lines 21-29.) -/
def defaultText : Nat → Option String
  | 1 => some "FX I"
  | 2 => some "FX II"
  | 3 => some "FX III"
  | 4 => some "FX IIII"
  | _ => none

/-- `effect_button.py:49-64`: the callback, with the defaults of `BinaryParameterCallback` for the values. The mapping has no response, so
the state is shown only if the internal state is used. -/
def Config.binary (c : Config) : Binary.Config :=
  { compare := .noStateChange, reference := 1, enable := .one 1, reported := c.internal, hasLabel := c.hasLabel,
    hasText := true, hasTextDisabled := false, color := fun _ _ => c.color }

/-- The state: the one of callback and action, the answer of the enable callback, and `__last_enabled`
(`controller/actions/__init__.py:51`, none for -1). -/
structure State where
  bin : Binary.State
  enabled : Bool
  last : Option Bool := none
deriving Repr, DecidableEq

/-- The state after the constructors. (`effect_button.py:31-64`.) -/
def initial (enabled : Bool) : State := { bin := Binary.initial (.one (.num 0)), enabled }

/-- What happens: a press (LATCH mode, a release does nothing), a message with the rig id, a change of the answer of the enable
callback, `Action.update` (each update interval), and `PushButtonAction.reset`.
(`effect_button.py:66-74`, `controller/actions/__init__.py:121-147, 258-314`.) -/
inductive Event where
  | press
  | rig
  | enable (b : Bool)
  | tick
  | reset
deriving Repr, DecidableEq

/-- `controller/actions/__init__.py:76-118, 155-157`: a disabled action has no LEDs. -/
def visible (enabled : Bool) (es : List Binary.Eff) : List Binary.Eff :=
  if enabled then es else es.filter (fun e => match e with | .led _ _ => false | _ => true)

/-- `controller/actions/__init__.py:142-147` `Action.update_displays`. -/
def draw (c : Config) (st : State) : State × List Binary.Eff :=
  if st.enabled then
    let r := Binary.updateDisplays c.binary st.bin
    ({ st with bin := r.1 }, r.2)
  else (st, [])

/-- `effect_button.py:66-74` `parameter_changed` for the rig id: the listener of the base class first
(`controller/actions/__init__.py:16-18`), then the callback is drawn directly. -/
def rigChanged (c : Config) (st : State) : State × List Binary.Eff :=
  let r := draw c st
  if r.1.bin.state then
    let r' := Binary.updateDisplays c.binary { r.1.bin with state := false }
    ({ r.1 with bin := r'.1 }, r.2 ++ visible st.enabled r'.2)
  else r

/-- One event. A disabled action is not pushed (`controller/inputs.py:130-134`); `update` is
`controller/actions/__init__.py:121-128`, `reset` lines 311-314. -/
def step (c : Config) (st : State) : Event → State × List Binary.Eff
  | .press =>
    if st.enabled then
      let r := Binary.toggle c.binary st.bin none
      ({ st with bin := r.1 }, r.2)
    else (st, [])
  | .rig => rigChanged c st
  | .enable b => ({ st with enabled := b }, [])
  | .tick =>
    if st.last ≠ some st.enabled then draw c { st with last := some st.enabled, bin := Binary.reset st.bin } else (st, [])
  | .reset => draw c { st with bin := { Binary.reset st.bin with state := false } }

/-- A history: the effects of each event, and the final state. (No code of its own: a history of `step`.) -/
def run (c : Config) : State → List Event → List (List Binary.Eff) × State
  | st, [] => ([], st)
  | st, e :: es =>
    let r := step c st e
    let rest := run c r.1 es
    (r.2 :: rest.1, rest.2)

end PySwitch.EffectButton
