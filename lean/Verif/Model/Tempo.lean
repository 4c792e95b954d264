import Verif.Model.LabelText
/-
Model of the tempo display (`content/lib/pyswitch/clients/kemper/actions/tempo.py`, `SHOW_TEMPO`).
-/
namespace PySwitch.Tempo
open PySwitch

/-- `tempo.py:30-53, 59-103`: `change` is a change display given, `label` a display given, `text` is `self._text.replace('{bpm}', bpm)`
as a function of `bpm`. -/
structure Config where
  change : Bool := false
  label : Bool := true
  text : String → String

/-- `tempo.py:47, 77-81`: the BPM value is used if it is displayed somewhere. -/
def Config.resolve (c : Config) : Bool := c.label || c.change

/-- The values of the four mappings, the attributes of `tempo.py:98-100`, and the answer of the enable callback with `__last_enabled`. -/
structure State where
  pulse : Option Nat := none
  tuner : Option Nat := none
  bpm : Option Nat := none
  rig : Option Nat := none
  current : Option Nat := none
  lastBpm : Option Nat := none
  lastRig : Option Nat := none
  enabled : Bool := true
  lastEnabled : Option Bool := none
deriving Repr, DecidableEq

/-- What is done: LEDs bright or off (`tempo.py:124-125`), label color (line 147), label text (line 150), preview (lines 136-139). -/
inductive Eff where
  | led (on : Bool)
  | back
  | text (s : String)
  | preview (s : String)
deriving Repr, DecidableEq

/-- `tempo.py:119-125`: the LEDs. -/
def ledPart (st : State) : State × List Eff :=
  match st.pulse with
  | none => (st, [])
  | some v => if st.current ≠ some v then ({ st with current := some v }, [.led (decide (v > 0))]) else (st, [])

/-- `tempo.py:127-144`: the text, and the preview. -/
def textPart (c : Config) (st : State) : State × Option String × List Eff :=
  match c.resolve, st.bpm with
  | true, some b =>
    if st.lastBpm ≠ some b then
      let text := c.text (LabelText.convertBpm b)
      ({ st with lastBpm := some b, lastRig := if c.change then st.rig else st.lastRig }, some text,
        if c.change ∧ st.lastBpm ≠ none ∧ st.rig = st.lastRig then [.preview text] else [])
    else (st, none, [])
  | _, _ => (st, none, [])

/-- `tempo.py:146-150`: the label. (An empty text counts as none.) -/
def labelPart (c : Config) (text : Option String) : List Eff :=
  if c.label then [.back] ++ (match text with
    | some s => if s = "" then [] else [.text s]
    | none => []) else []

/-- `tempo.py:114-150` `update_displays`. -/
def updateDisplays (c : Config) (st : State) : State × List Eff :=
  if st.tuner = some 1 then (st, [])
  else
    let r := ledPart st
    let t := textPart c r.1
    (t.1, r.2 ++ t.2.2 ++ labelPart c t.2.1)

/-- `controller/actions/__init__.py:16-22, 142-147`. -/
def draw (c : Config) (st : State) : State × List Eff := if st.enabled then updateDisplays c st else (st, [])

/-- What happens: a value for one of the mappings or the loss of it, a change of the answer of the enable callback, `Action.update`
and `Action.reset` (lines 121-128 and 150-152 of `controller/actions/__init__.py`; the callback inherits a `reset` which does nothing,
`controller/callbacks/__init__.py:39-40`). -/
inductive Event where
  | pulse (v : Option Nat)
  | tuner (v : Option Nat)
  | bpm (v : Option Nat)
  | rig (v : Option Nat)
  | enable (b : Bool)
  | tick
  | reset
deriving Repr, DecidableEq

/-- One event. The rig id is used only with a change display, BPM only if displayed. (`tempo.py:108-150`, see `Event`.) -/
def step (c : Config) (st : State) : Event → State × List Eff
  | .pulse v => draw c { st with pulse := v }
  | .tuner v => draw c { st with tuner := v }
  | .bpm v => if c.resolve then draw c { st with bpm := v } else (st, [])
  | .rig v => if c.change then draw c { st with rig := v } else (st, [])
  | .enable b => ({ st with enabled := b }, [])
  | .tick => if st.lastEnabled ≠ some st.enabled then draw c { st with lastEnabled := some st.enabled } else (st, [])
  | .reset => (st, [])

/-- A history: the effects of each event, and the final state. (No code of its own: a history of `step`.) -/
def run (c : Config) : State → List Event → List (List Eff) × State
  | st, [] => ([], st)
  | st, e :: es =>
    let r := step c st e
    let rest := run c r.1 es
    (r.2 :: rest.1, rest.2)

end PySwitch.Tempo
