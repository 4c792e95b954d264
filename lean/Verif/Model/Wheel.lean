import Verif.Model.Switch
import Verif.Model.Encoder
import Verif.Model.Preview
import Verif.Model.EncoderButton
/-
Model of an encoder with preselection together with its buttons and its preview display, as the wheel of the default
configuration: `content/inputs.py:19-36` (the encoder with an accept and a cancel button) and
`content/inputs.py:171-182` (a switch with the accept button as action and the cancel button as hold action), with
`content/lib/pyswitch/controller/actions/EncoderAction.py`,
`content/lib/pyswitch/clients/local/actions/encoder_button.py`, `content/lib/pyswitch/controller/inputs.py` and
`content/lib/pyswitch/controller/preview.py`.

It is put together from the models of these parts. Action 0 is the accept button, action 1 the cancel button. The
encoder is number 0 for its buttons and client 0 of the preview.
-/
namespace PySwitch.Wheel

/-- The parameters: those of the encoder and of the label, the text for a value (`EncoderAction.py:163-182`), and the
times and color for the preview (`EncoderAction.py:70-73`). -/
structure Config where
  enc : Encoder.Config
  pv : Preview.Config
  conv : Int → String
  holdTime : Int := 600
  timeout : Option Int := some 1500
  blink : Option Int := some 400
  blinkColor : Color := ⟨200, 200, 200⟩

/-- `content/inputs.py:171-182`. -/
def switchConfig : Switch.Config := { actions := [0], actionsHold := [1] }

/-- `content/inputs.py:28-29`: the buttons of the encoder. -/
def assignments : List EncoderButton.Assignment := [⟨some 0, some 1⟩]

/-- Everything that changes. (No code of its own: the parts are modelled in the files named above.) -/
structure World where
  enc : Encoder.State
  sw : Switch.State
  lab : Preview.State

/-- The state after set-up. (No code of its own: see `World`.) -/
def initial (c : Config) (lab : Preview.State) : World := ⟨{}, Switch.initial c.holdTime, lab⟩

/-- What happens. `turn` processes the encoder at a position; `button` processes the switch; `device` is a new value of
the parameter (or its loss); `rig` the same for the reset mapping; `other` is a preview of somebody else on the same
label (clients get other numbers than 0); `update` and `content` are regular updates and new texts of the label.
(No code of its own: see `World`.) -/
inductive Ev where
  | turn (now : Int) (p : Int)
  | button (s : Switch.Sample)
  | device (v : Option Int)
  | rig (v : Option Int)
  | other (now : Int) (r : Preview.Request)
  | update (now : Int)
  | content (s : String)

/-- `EncoderAction.py:162-182, 204-205`: what the encoder does to the label. -/
def show1 (c : Config) (now : Int) (lab : Preview.State) : Encoder.Eff → Preview.State
  | .preview v =>
    (Preview.preview c.pv lab now ⟨c.conv v, some 0, c.enc.preselect, c.timeout,
      if c.enc.preselect then c.blink else none, c.blinkColor⟩).1
  | .previewReset i => Preview.reset c.pv lab now i
  | _ => lab

/-- All of them, in order (`EncoderAction.py:162-205`). -/
def showAll (c : Config) (now : Int) (lab : Preview.State) (es : List Encoder.Eff) : Preview.State :=
  es.foldl (show1 c now) lab

/-- What a button does with the encoder. (`encoder_button.py:32-37`, `EncoderAction.py:185-205`.) -/
def call (c : Config) (enc : Encoder.State) : EncoderButton.Call → Except Encoder.Err (Encoder.State × List Encoder.Eff)
  | .accept _ => Encoder.accept c.enc enc
  | .cancel _ => Encoder.cancel c.enc enc true

/-- A sequence of calls. (No code of its own: a sequence of `call`.) -/
def calls (c : Config) : Encoder.State → List EncoderButton.Call → Except Encoder.Err (Encoder.State × List Encoder.Eff)
  | enc, [] => .ok (enc, [])
  | enc, k :: ks =>
    match call c enc k with
    | .error e => .error e
    | .ok (enc, es) =>
      match calls c enc ks with
      | .error e => .error e
      | .ok (enc', es') => .ok (enc', es ++ es')

/-- The buttons called by the effects of the switch. (Releasing a button does nothing.). (`controller/inputs.py:91-154`.) -/
def pushed : List Switch.Eff → List EncoderButton.Call
  | [] => []
  | .push a :: es => (EncoderButton.buttons assignments a).push ++ pushed es
  | _ :: es => pushed es

/-- One event: the new state, and what the encoder has done.
(`EncoderAction.py:112-205`, `controller/inputs.py:71-154`, see `Ev`.) -/
def step (c : Config) (w : World) : Ev → Except Encoder.Err (World × List Encoder.Eff)
  | .turn now p =>
    match Encoder.process c.enc w.enc p with
    | .error e => .error e
    | .ok (enc, es) => .ok ({ w with enc := enc, lab := showAll c now w.lab es }, es)
  | .button s =>
    let r := Switch.process switchConfig w.sw s
    match calls c w.enc (pushed r.2) with
    | .error e => .error e
    | .ok (enc, es) => .ok (⟨enc, r.1, showAll c s.now w.lab es⟩, es)
  | .device v => .ok ({ w with enc := { w.enc with value := v } }, [])
  | .rig v => .ok ({ w with enc := { w.enc with resetValue := v } }, [])
  | .other now r =>
    let x := Preview.preview c.pv w.lab now { r with client := r.client.map (· + 1) }
    -- `preview.py:48-53` (the part of `cancel` for the label is in the model of `preview`)
    if 0 ∈ x.2 then
      match Encoder.cancel c.enc w.enc true with
      | .error e => .error e
      | .ok (enc, es) => .ok ({ w with enc := enc, lab := x.1 }, es)
    else .ok ({ w with lab := x.1 }, [])
  | .update now => .ok ({ w with lab := Preview.update c.pv w.lab now }, [])
  | .content s => .ok ({ w with lab := Preview.updateLabel c.pv { w.lab with content := s } }, [])

/-- A history: the final state, and what the encoder has done in each event. (No code of its own: a history of `step`.) -/
def run (c : Config) : World → List Ev → Except Encoder.Err (World × List (List Encoder.Eff))
  | w, [] => .ok (w, [])
  | w, e :: es =>
    match step c w e with
    | .error x => .error x
    | .ok (w', o) =>
      match run c w' es with
      | .error x => .error x
      | .ok (w'', os) => .ok (w'', o :: os)

end PySwitch.Wheel
