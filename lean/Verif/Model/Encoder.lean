import Verif.Model.Num
/-
Model of `EncoderAction` (`content/lib/pyswitch/controller/actions/EncoderAction.py`) and of the bank select encoder
derived from it (`content/lib/pyswitch/clients/kemper/actions/bank_select_encoder.py:25-68`). Floats are rational
numbers.
-/
namespace PySwitch.Encoder

/-- The exception which can be raised: an operation on `None`. (`EncoderAction.py:132-182`.) -/
inductive Err where
  | typeError
deriving Repr, DecidableEq

/-- The parameters, `EncoderAction.py:9-29`. `sysex` is the condition of line 32, `preselect` is line 64 (an accept action is
given), `resetMapping` the condition of lines 91 and 121. `scale` is `NUM_RIGS_PER_BANK` for the bank select encoder
(`bank_select_encoder.py:64-68`) and `none` otherwise. -/
structure Config where
  sysex : Bool := false
  min : Int := 0
  maxValue : Option Int := none
  stepWidth : Option Rat := none
  preselect : Bool := false
  hasPreview : Bool := false
  resetMapping : Bool := false
  scale : Option Int := none
deriving Repr, DecidableEq

/-- `EncoderAction.py:32-39`. -/
def Config.max (c : Config) : Int :=
  match c.maxValue with
  | some m => m
  | none => if c.sysex then 16383 else 127

/-- `EncoderAction.py:32-41`. -/
def Config.step (c : Config) : Rat :=
  match c.stepWidth with
  | some s => s
  | none => if c.sysex then 80 else 1

/-- The state, `EncoderAction.py:46-77`: `value` is `_mapping.value`, `resetValue` the value of the reset mapping (both are
changed from outside). In `lastValue`, `none` is `None`. -/
structure State where
  value : Option Int := none
  lastPos : Int := -1
  lastValue : Option Int := some (-1)
  active : Bool := false
  resetValue : Option Int := none
  resetLast : Option Int := none
deriving Repr, DecidableEq

/-- What the encoder does: `set v` is `client.set` with the value; `preview v` shows a value on the preview display;
`previewReset` resets it (immediately or after the timeout); `bank b` stores the preselected bank
(`bank_select_encoder.py:58-62`). -/
inductive Eff where
  | set (v : Int)
  | preview (v : Int)
  | previewReset (immediately : Bool)
  | bank (b : Int)
deriving Repr, DecidableEq

/-- `EncoderAction.py:104-105` `_get_value`, `bank_select_encoder.py:64-65`. -/
def getValue (c : Config) (st : State) : Except Err (Option Int) :=
  match c.scale with
  | none => .ok st.value
  | some k =>
    match st.value with
    | none => .error .typeError
    | some v => .ok (some (pyInt ((v : Rat) / k)))

/-- `EncoderAction.py:108-109` `_set_value`, `bank_select_encoder.py:67-68`. -/
def setValue (c : Config) (st : State) (v : Int) : State :=
  match c.scale with
  | none => { st with value := some v }
  | some k => { st with value := some (v * k) }

/-- `EncoderAction.py:199-205` `cancel`. -/
def cancel (c : Config) (st : State) (immediately : Bool) : Except Err (State × List Eff) :=
  match getValue c st with
  | .error e => .error e
  | .ok v =>
    .ok ({ st with active := false, lastValue := v }, if c.hasPreview then [.previewReset immediately] else [])

/-- `EncoderAction.py:185-196` `accept`, with its extension for the bank select encoder (which is never in preselect mode). (`None` cannot be sent: in preselect mode, the last value is a number while a preselection
is active; otherwise `accept` is called right after the last value has been set.) -/
def accept (c : Config) (st : State) : Except Err (State × List Eff) :=
  match st.lastValue with
  | none => .ok (st, [])
  | some v =>
    if v = -1 then .ok (st, [])
    else if c.preselect && !st.active then .ok (st, [])
    else
      match cancel c (setValue c st v) false with
      | .error e => .error e
      | .ok (st', es) =>
        -- `bank_select_encoder.py:52-62`
        let bank := match c.scale, st'.lastValue with
          | some _, some b => if b = -1 then [] else [.bank b]
          | _, _ => []
        .ok (st', .set v :: es ++ bank)

/-- `EncoderAction.py:148-151`. -/
def clamp (c : Config) (v : Int) : Int :=
  let v := if v < c.min then c.min else v
  if v > c.max then c.max else v

/-- `EncoderAction.py:120-126`: reset the preselection when the value of the reset mapping has changed. -/
def checkReset (c : Config) (st : State) : Except Err (State × List Eff) :=
  if c.hasPreview && c.preselect && c.resetMapping then
    if st.resetValue ≠ st.resetLast then
      let r := if st.resetValue ≠ none ∧ st.resetLast ≠ none then cancel c st true else .ok (st, [])
      match r with
      | .error e => .error e
      | .ok (st', es) => .ok ({ st' with resetLast := st'.resetValue }, es)
    else .ok (st, [])
  else .ok (st, [])

/-- `EncoderAction.py:132-182`, for a changed (scaled) position. -/
def turned (c : Config) (st : State) (position : Int) : Except Err (State × List Eff) :=
  -- lines 133-134
  match getValue c st with
  | .error e => .error e
  | .ok gv =>
    let st := if gv = none then setValue c st 0 else st
    -- lines 137-140
    let add := position - st.lastPos
    let st := { st with lastPos := position }
    -- lines 143-146
    let base := if c.preselect then .ok st.lastValue else getValue c st
    match base with
    | .error e => .error e
    | .ok none => .error .typeError
    | .ok (some b) =>
      let v := clamp c (b + add)
      -- lines 154-182
      if st.lastValue ≠ some v then
        let st := { st with lastValue := some v }
        let pre := if c.hasPreview then [.preview v] else []
        if c.preselect then .ok ({ st with active := true }, pre)
        else
          match accept c st with
          | .error e => .error e
          | .ok (st', es) => .ok (st', es ++ pre)
      else .ok (st, [])

/-- `EncoderAction.py:112-182` `process`. -/
def process (c : Config) (st : State) (position : Int) : Except Err (State × List Eff) :=
  -- line 114
  let position := pyInt (position * c.step)
  -- lines 117-118
  let st := if st.lastPos = -1 then { st with lastPos := position } else st
  match checkReset c st with
  | .error e => .error e
  | .ok (st, es) =>
    -- lines 129-130
    if st.lastPos = position then .ok (st, es)
    else
      match turned c st position with
      | .error e => .error e
      | .ok (st', es') => .ok (st', es ++ es')

/-- What happens: `turn p` is `process` with the current position of the encoder; `device v` is a new value of the
parameter (or its loss); `resetMap v` the same for the reset mapping; `accept` and `cancel` are called by the encoder
buttons (`EncoderAction.py:58-62`; accepting is only possible if there is an accept action), `cancel` also by the preview display
when another client uses it. -/
inductive Op where
  | turn (p : Int)
  | device (v : Option Int)
  | resetMap (v : Option Int)
  | accept
  | cancel
deriving Repr, DecidableEq

/-- One event. (`EncoderAction.py:112-205`, see `Op`.) -/
def step (c : Config) (st : State) : Op → Except Err (State × List Eff)
  | .turn p => process c st p
  | .device v => .ok ({ st with value := v }, [])
  | .resetMap v => .ok ({ st with resetValue := v }, [])
  | .accept => if c.preselect then accept c st else .ok (st, [])
  | .cancel => cancel c st true

/-- A history of events: the final state, and the effects of each event. (No code of its own: a history of `step`.) -/
def run (c : Config) : State → List Op → Except Err (State × List (List Eff))
  | st, [] => .ok (st, [])
  | st, o :: os =>
    match step c st o with
    | .error e => .error e
    | .ok (st', es) =>
      match run c st' os with
      | .error e => .error e
      | .ok (st'', ess) => .ok (st'', es :: ess)

end PySwitch.Encoder
