import Verif.Model.Num
import Verif.Model.Leds
/-
Model of the morph state display (`content/lib/pyswitch/clients/kemper/actions/morph.py`) and of the display of the morph state
on rig select switches (`rig_select_and_morph_state.py`, below "rig_select").
-/
namespace PySwitch.Morph
open PySwitch

/-- `morph.py:88-129`: the colors of a callback: `fix` is `fix_color` (none for "kemper"). -/
structure Config where
  fix : Option Color := none
  base : Color := ⟨255, 0, 0⟩
  morph : Color := ⟨0, 0, 255⟩
  internal : Bool := true
  suppressSend : Bool := false
deriving Repr, DecidableEq

/-- `morph.py:75-81`: one channel for a value. -/
def channel (base morph value : Int) : Int := base + pyInt (((morph - base : Int) : Rat) * ((value : Rat) / 16383))

/-- `Colors.WHITE`. (`content/lib/pyswitch/colors.py:4`.) -/
def white : Color := ⟨255, 255, 255⟩

/-- `morph.py:64-81` `_get_color`: `shared` is the value of `morphStateOverride` if the callback uses it and it is set. -/
def getColor (c : Config) (shared value : Option Int) : Color :=
  let v := match shared with
    | some s => some s
    | none => value
  match v with
  | none => white
  | some v =>
    match c.fix with
    | some f => f
    | none => ⟨channel c.base.r c.morph.r v, channel c.base.g c.morph.g v, channel c.base.b c.morph.b v⟩

/-- One callback: the value of its mapping, the value evaluated last (`controller/callbacks/__init__.py:158`, `none` for none), lines
129-134, and the color shown (`none` before the first drawing). -/
structure Callback where
  value : Option Int := none
  current : Option (Option Int) := none
  last : Option Int := none
  ignore : Bool := false
  shown : Option Color := none
deriving Repr, DecidableEq

/-- All callbacks, and `appl.shared["morphStateOverride"]` (`none` if not set). (`morph.py:88-165`.) -/
structure State where
  shared : Option Int := none
  cbs : List Callback
deriving Repr, DecidableEq

/-- `morph.py:155-165` `evaluate_value`, with the new value of the shared state. (The state of the action is not changed by the
callbacks used here, their comparison mode is `NO_STATE_CHANGE`.) -/
def evaluate (c : Config) (shared : Option Int) (cb : Callback) (v : Option Int) : Option Int × Callback :=
  match v with
  | none => (shared, cb)
  | some v =>
    if c.internal ∧ cb.last ≠ some v then
      if cb.ignore then (shared, { cb with last := some v, ignore := false })
      else (some v, { cb with last := some v })
    else (shared, cb)

/-- `controller/callbacks/__init__.py:232-248` `update_displays`: evaluates new values, then shows the color. -/
def draw (c : Config) (shared : Option Int) (cb : Callback) : Option Int × Callback :=
  let r := if cb.current ≠ some cb.value then evaluate c shared { cb with current := some cb.value } cb.value else (shared, cb)
  (r.1, { r.2 with shown := some (getColor c (if c.internal then r.1 else none) cb.value) })

/-- What happens: `init` of a callback (`morph.py:137-142`), a value for the mapping of a callback (or the loss of it), a press or
release (`state` is the state of the action after it, lines 145-152), a change of the shared state by a rig or bank change,
a change of the rig select state (`rig_select_and_morph_state.py:94-109`), or a reset of the action (then the displays are drawn again). -/
inductive Event where
  | init (k : Nat)
  | value (k : Nat) (v : Option Int)
  | user (k : Nat) (state : Bool)
  | external (v : Int)
  | enabling (k : Nat)
  | reset (k : Nat)
deriving Repr, DecidableEq

/-- `morph.py:151-152`: the new shared state. -/
def toggle (shared : Option Int) : Option Int := some (if shared.getD 0 > 0 then 0 else 16383)

/-- Draws one callback. (No code of its own: `draw` for one of several callbacks.) -/
def drawAt (c : Config) (st : State) (k : Nat) (cb : Callback) : State :=
  let r := draw c st.shared cb
  ⟨r.1, st.cbs.set k r.2⟩

/-- One event for the callbacks with these configurations. (`morph.py:137-165`, see `Event`.) -/
def step (cs : List Config) (st : State) : Event → State
  | .init k =>
    match cs[k]? with
    | some c => if c.internal then { st with shared := some 0 } else st
    | none => st
  | .value k v =>
    match cs[k]?, st.cbs[k]? with
    | some c, some cb => drawAt c st k { cb with value := v }
    | _, _ => st
  | .user k state =>
    match cs[k]?, st.cbs[k]? with
    | some c, some cb =>
      let st := if !c.suppressSend && c.internal && state then { st with shared := toggle st.shared } else st
      drawAt c st k cb
    | _, _ => st
  | .external v => { st with shared := some v }
  | .enabling k =>
    match st.cbs[k]? with
    | some cb => { st with cbs := st.cbs.set k { cb with ignore := true } }
    | none => st
  | .reset k =>
    match cs[k]?, st.cbs[k]? with
    | some c, some cb => drawAt c st k { cb with current := none }
    | _, _ => st

/-- A history. (No code of its own: a history of `step`.) -/
def run (cs : List Config) (st : State) (es : List Event) : State := es.foldl (step cs) st

end PySwitch.Morph
