/-
Model of `BinaryParameterCallback` (`content/lib/pyswitch/controller/callbacks/__init__.py:66-336`), together
with the state of the action using it.
-/
namespace PySwitch.Binary

/-- `controller/callbacks/__init__.py:69-77` the comparison modes. Other values raise an exception (line 282). -/
inductive Compare where
  | equal | greater | greaterEqual | less | lessEqual | noStateChange
deriving Repr, DecidableEq

/-- A value to be sent for "off": a number, or `"auto"`. (`controller/callbacks/__init__.py:103-107, 145`.) -/
inductive DVal where
  | num (n : Int)
  | auto
deriving Repr, DecidableEq

/-- The number, if it is one. (`controller/callbacks/__init__.py:145`.) -/
def DVal.num? : DVal → Option Int
  | .num n => some n
  | .auto => none

/-- A single entry or a list of entries (`controller/callbacks/__init__.py:99-107`). -/
inductive OneOrMany (α : Type) where
  | one (a : α)
  | many (as : List α)
deriving Repr, DecidableEq

/-- The parameters of the constructor, `controller/callbacks/__init__.py:79-156`. `reference` is `__reference_value` (line 146). The settings of
brightness and dim factor (lines 175-194) are represented by "on" or "off" only. `reported` is the condition in
lines 303, 316 and 330: the mapping has a response, or the internal state is used. -/
structure Config where
  compare : Compare
  reference : Int
  enable : OneOrMany Int
  hasMappingDisable : Bool := false
  reported : Bool := true
  hasLabel : Bool := true
  hasText : Bool := true
  hasTextDisabled : Bool := true
  /-- `color_callback(action, value)` or the fixed color, `controller/callbacks/__init__.py:239`; the action counts by its state only. -/
  color : Bool → Option Int → Nat

/-- The state of the callback (`controller/callbacks/__init__.py:144-167`), the value of its mapping and the state of its action. In
`currentValue`, `none` is the object itself (line 158), which is different from every value. The display state
`none` is -1 (line 227). `updateDisabled` is `__update_value_disabled`. -/
structure State where
  value : Option Int := none
  state : Bool := false
  disable : OneOrMany DVal
  updateDisabled : OneOrMany Bool
  currentValue : Option (Option Int) := none
  displayState : Option Bool := none
  currentColor : Option Nat := none
deriving Repr, DecidableEq

/-- The value sent by `client.set`. (`controller/callbacks/__init__.py:211, 219`.) -/
inductive Sent where
  | one (n : Int)
  | many (ns : List Int)
deriving Repr, DecidableEq

/-- What the callback does: `set disableMapping value` is `client.set` with the mapping or the disable mapping;
`request` is the request of the value; `led`, `label` and `text` are the settings of the LEDs (color, bright or
dimmed), of the label background (color, bright or dimmed) and of the label text (normal text or the one for the
disabled state). (`controller/callbacks/__init__.py:211, 219, 222, 246-248`.) -/
inductive Eff where
  | set (disableMapping : Bool) (v : Sent)
  | request
  | led (color : Nat) (on : Bool)
  | label (color : Nat) (on : Bool)
  | text (enabled : Bool)
deriving Repr, DecidableEq

/-- `controller/callbacks/__init__.py:158-167`: the constructor, for the given value for "off". -/
def initial (disable : OneOrMany DVal) : State :=
  { disable
    updateDisabled := match disable with
      | .one v => .one (v == .auto)
      | .many vs => .many (vs.map (· == .auto)) }

/-- The value to be sent for "off" as a value of `client.set`; `none` if it is or contains `"auto"`.
(`controller/callbacks/__init__.py:207-219`.) -/
def resolved : OneOrMany DVal → Option Sent
  | .one (.num n) => some (.one n)
  | .one .auto => none
  | .many vs => (vs.mapM DVal.num?).map .many

/-- The value to be sent for "on". (`controller/callbacks/__init__.py:200`.) -/
def enableSent : OneOrMany Int → Sent
  | .one n => .one n
  | .many ns => .many ns

/-- `controller/callbacks/__init__.py:197-222` `state_changed_by_user`. -/
def stateChanged (c : Config) (st : State) : List Eff :=
  let disableMapping := !st.state && c.hasMappingDisable
  (match st.disable with
    | .one d =>
      -- lines 209-211
      if st.state then [.set disableMapping (enableSent c.enable)]
      else match resolved (.one d) with
        | some v => [.set disableMapping v]
        | none => []
    | .many ds =>
      -- lines 213-219: nothing is sent if "auto" is contained
      match resolved (.many ds) with
      | none => []
      | some v => [.set disableMapping (if st.state then enableSent c.enable else v)]) ++ [.request]

/-- `controller/callbacks/__init__.py:252-282`: the state for a value. -/
def evaluate (c : Config) (actionState : Bool) (value : Option Int) : Bool :=
  match value with
  | none => false
  | some v =>
    match c.compare with
    | .equal => decide (v = c.reference)
    | .greaterEqual => decide (v ≥ c.reference)
    | .greater => decide (v > c.reference)
    | .lessEqual => decide (v ≤ c.reference)
    | .less => decide (v < c.reference)
    | .noStateChange => actionState

/-- `controller/callbacks/__init__.py:287-295`: remember the value for "off". The first condition is `state == True or not
self.__update_value_disabled or value == None`. -/
def remember (st : State) (newState : Bool) (value : Option Int) : OneOrMany DVal :=
  match value with
  | none => st.disable
  | some v =>
    if newState then st.disable
    else match st.updateDisabled, st.disable with
      | .one true, .one _ => .one (.num v)
      | .many us, .many ds => .many (List.zipWith (fun u d => if u then .num v else d) us ds)
      | _, d => d

/-- `controller/callbacks/__init__.py:252-295` `evaluate_value`. -/
def evaluateValue (c : Config) (st : State) (value : Option Int) : State :=
  let s := evaluate c st.state value
  { st with state := s, disable := remember st s value }

/-- `controller/callbacks/__init__.py:298-336`: what is displayed for a color in the current state. -/
def display (c : Config) (s : Bool) (color : Nat) : List Eff :=
  [.led color (s && c.reported)] ++
  (if c.hasLabel then [.label color (s && c.reported)] else []) ++
  (if c.hasLabel && c.hasText then [.text (s || !c.reported || !c.hasTextDisabled)] else [])

/-- `controller/callbacks/__init__.py:232-248` `update_displays`. -/
def updateDisplays (c : Config) (st : State) : State × List Eff :=
  let st := if st.currentValue ≠ some st.value
    then evaluateValue c { st with currentValue := some st.value } st.value else st
  let color := c.color st.state st.value
  if st.currentColor ≠ some color || st.displayState ≠ some st.state then
    ({ st with currentColor := some color, displayState := some st.state }, display c st.state color)
  else (st, [])

/-- `controller/callbacks/__init__.py:226-229` `reset`. -/
def reset (st : State) : State :=
  { st with displayState := none, currentValue := none, currentColor := none }

/-- What happens, for a callback of a `PushButtonAction` (`controller/actions/__init__.py`):
* `value v` is a new value of the parameter, or the loss of it, followed by `update_displays` (lines 16-22);
* `toggle fb` is a change of the state by the user (lines 239-249; the setter does nothing if the state is not
  changed), where `fb` is the value fed back at once by a bidirectional client during `client.set`, if any;
* `shot fb` is a push in ONE_SHOT mode (lines 286-288), `shotEnd` the release (lines 305-308);
* `reset` is `PushButtonAction.reset` (lines 311-314);
* `enable v` is the action being enabled (again), `v` being the value of the mapping at that time (lines 121-128);
  a disabled action is not processed. -/
inductive Op where
  | value (v : Option Int)
  | toggle (fb : Option Int)
  | shot (fb : Option Int)
  | shotEnd
  | reset
  | enable (v : Option Int)
deriving Repr, DecidableEq

/-- `controller/actions/__init__.py:244-249`, for a changed state: `state_changed_by_user`, then `update_displays`.
The value fed back arrives in `client.set`, before the request is made. (It arrives only if something is sent;
this is not enforced here.) -/
def toggle (c : Config) (st : State) (fb : Option Int) : State × List Eff :=
  let st₁ := { st with state := !st.state }
  let es₁ := stateChanged c st₁
  let r := match fb with
    | none => (st₁, [])
    | some v => updateDisplays c { st₁ with value := some v }
  let r' := updateDisplays c r.1
  (r'.1, es₁ ++ r.2 ++ r'.2)

/-- One event. (See `Op`; `controller/callbacks/__init__.py:197-248`.) -/
def step (c : Config) (st : State) : Op → State × List Eff
  | .value v => updateDisplays c { st with value := v }
  | .toggle fb => toggle c st fb
  | .shot fb => toggle c { st with state := false } fb
  | .shotEnd => updateDisplays c { st with state := false }
  | .reset => updateDisplays c { reset st with state := false }
  | .enable v => updateDisplays c { reset st with value := v }

/-- A history of events: the effects of each one, and the final state. (No code of its own: a history of `step`.) -/
def run (c : Config) : State → List Op → List (List Eff) × State
  | st, [] => ([], st)
  | st, o :: os =>
    let r := step c st o
    let rest := run c r.1 os
    (r.2 :: rest.1, rest.2)

end PySwitch.Binary
