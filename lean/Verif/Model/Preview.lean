import Verif.Model.Misc
import Verif.Model.Num
/-
Model of `ValuePreview` (`content/lib/pyswitch/controller/preview.py`) together with the part of `DisplayLabel`
(`content/lib/pyswitch/ui/elements.py`) it uses. The low memory warning of the label
(`elements.py:186-188`) and the wrapping of texts are not modelled.
-/
namespace PySwitch.Preview

/-- What does not change: does the label have a callback providing its normal text (`elements.py:59, 68-72`); its text
color when the preview handler has been created (`preview.py:34`; a color, not the automatically determined one); and
which clients reset this preview, immediately, when they are cancelled (as encoders do, `EncoderAction.py:199-205`). -/
structure Config where
  callback : Bool := true
  origColor : Color := ⟨255, 255, 255⟩
  resets : Nat → Bool := fun _ => true

/-- The state: `content` is the text the callback of the label would set. The other fields are those of the label
(`elements.py:51-66`) and of the handler (`preview.py:27-36`). Clients are numbered. `blinkColor` is set by `preview`
(line 73). -/
structure State where
  content : String := ""
  text : String := ""
  override : Option String := none
  textColor : Color := ⟨255, 255, 255⟩
  period : Option PeriodCounter := none
  blinkPeriod : Option PeriodCounter := none
  stay : Bool := false
  blinkState : Bool := false
  blinkColor : Color := ⟨200, 200, 200⟩
  clients : List Nat := []
deriving Repr, DecidableEq

/-- Python truthiness of the override text (`None` and the empty string are falsy). (`elements.py:69`, `preview.py:135`.) -/
def hasOverride (st : State) : Bool :=
  match st.override with
  | none => false
  | some t => t != ""

/-- `elements.py:68-72` `update_label`. -/
def updateLabel (c : Config) (st : State) : State :=
  match st.override with
  | some t => if t = "" then (if c.callback then { st with text := st.content } else st) else { st with text := t }
  | none => if c.callback then { st with text := st.content } else st

/-- `preview.py:117-131` `reset`, at the time `now`. -/
def reset (c : Config) (st : State) (now : Int) (immediately : Bool) : State :=
  let st := { st with blinkPeriod := none, stay := false, textColor := c.origColor }
  match st.period with
  | none => { updateLabel c { st with override := none } with period := none }
  | some p =>
    if immediately then { updateLabel c { st with override := none } with period := none }
    else { st with period := some (p.reset now) }

/-- What a client has to provide for a preview (`preview.py:39-46`); times in milliseconds, `none` stands for `None` and 0. -/
structure Request where
  text : String
  client : Option Nat := none
  stay : Bool := false
  timeout : Option Int := some 1500
  blink : Option Int := none
  blinkColor : Color := ⟨200, 200, 200⟩
deriving Repr, DecidableEq

/-- `preview.py:48-53`: cancel the other clients. The result contains those whose `cancel` has been called. -/
def cancelOthers (c : Config) (client : Option Nat) (now : Int) : State → List Nat → State × List Nat
  | st, [] => (st, [])
  | st, k :: ks =>
    if some k = client then cancelOthers c client now st ks
    else
      let st := if c.resets k then reset c st now true else st
      let r := cancelOthers c client now st ks
      (r.1, k :: r.2)

/-- `preview.py:60-68`: the period for a timeout. -/
def newPeriod (old : Option PeriodCounter) (timeout : Option Int) (now : Int) : Option PeriodCounter :=
  match timeout with
  | none => none
  | some t =>
    match old with
    | none => some (PeriodCounter.reset { interval := t } now)
    | some p => some (PeriodCounter.reset { p with interval := t } now)

/-- `preview.py:70-78`: the period for blinking (which is not reset). -/
def newBlinkPeriod (old : Option PeriodCounter) (blink : Option Int) : Option PeriodCounter :=
  match blink with
  | none => none
  | some t =>
    match old with
    | none => some { interval := t }
    | some p => some { p with interval := t }

/-- `preview.py:39-85` `preview`. The result contains the cancelled clients. -/
def preview (c : Config) (st : State) (now : Int) (r : Request) : State × List Nat :=
  let (st, cancelled) := cancelOthers c r.client now st st.clients
  let st := updateLabel c { st with stay := r.stay, override := some r.text }
  let st := { st with period := newPeriod st.period r.timeout now,
                      blinkPeriod := newBlinkPeriod st.blinkPeriod r.blink, blinkColor := r.blinkColor }
  let clients := match r.client with
    | none => st.clients
    | some k => if k ∈ st.clients then st.clients else st.clients ++ [k]
  ({ st with clients := clients }, cancelled)

/-- `preview.py:137-139`: free the preview display after the timeout. -/
def updateTimeout (c : Config) (st : State) (now : Int) : State :=
  if st.stay then st
  else
    match st.period with
    | none => st
    | some p =>
      let (b, p) := p.exceeded now
      let st := { st with period := some p }
      if b then updateLabel c { st with override := none } else st

/-- `preview.py:142-148`: blinking. -/
def updateBlink (c : Config) (st : State) (now : Int) : State :=
  match st.blinkPeriod with
  | none => st
  | some p =>
    let (b, p) := p.exceeded now
    let st := { st with blinkPeriod := some p }
    if b then
      let s := !st.blinkState
      { st with blinkState := s, textColor := if s then st.blinkColor else c.origColor }
    else st

/-- `preview.py:134-148` `update`. -/
def update (c : Config) (st : State) (now : Int) : State :=
  if hasOverride st then updateBlink c (updateTimeout c st now) now else st

/-- What happens: a preview, a reset, a regular update, or the normal content of the label changes (then the listener
of `elements.py:81-91` updates the label). -/
inductive Op where
  | preview (now : Int) (r : Request)
  | reset (now : Int) (immediately : Bool)
  | update (now : Int)
  | content (s : String)
deriving Repr, DecidableEq

/-- One operation, `preview.py:39-148`. -/
def step (c : Config) (st : State) : Op → State × List Nat
  | .preview t r => preview c st t r
  | .reset t i => (reset c st t i, [])
  | .update t => (update c st t, [])
  | .content s => (updateLabel c { st with content := s }, [])

/-- Several operations; the cancelled clients of each. (No code of its own: a history of `step`.) -/
def run (c : Config) (st : State) : List Op → State × List (List Nat)
  | [] => (st, [])
  | o :: os =>
    let (st, x) := step c st o
    let (st, xs) := run c st os
    (st, x :: xs)

/-- `preview.py:88-114` `preview_mapping` without a text callback: the text shown for a value. -/
def mappingText (name : String) (value maxValue : Int) : String :=
  (if name = "" then "" else name ++ ": ") ++ toString (pyRound ((value : Rat) * 100 / maxValue)) ++ "%"

end PySwitch.Preview
