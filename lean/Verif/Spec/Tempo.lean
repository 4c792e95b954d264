import Verif.Model.Tempo
/-
Specification vocabulary for the tempo display.
-/
namespace PySwitch.Tempo

/-- Values known after a history. -/
def lastPulse (es : List Event) : Option Nat := es.foldl (fun s e => match e with | .pulse v => v | _ => s) none
def lastTuner (es : List Event) : Option Nat := es.foldl (fun s e => match e with | .tuner v => v | _ => s) none
def lastTempo (es : List Event) : Option Nat := es.foldl (fun s e => match e with | .bpm v => v | _ => s) none
def isEnabled (es : List Event) : Bool := es.foldl (fun s e => match e with | .enable b => b | _ => s) true

/-- What the LEDs and the label show after an effect. -/
def ledAfter (s : Option Bool) : Eff → Option Bool
  | .led b => some b
  | _ => s
def textAfter (s : Option String) : Eff → Option String
  | .text t => some t
  | _ => s

/-- What the LEDs and the label show after some effects, if nothing else uses them. -/
def leds (es : List Eff) : Option Bool := es.foldl ledAfter none
def label (es : List Eff) : Option String := es.foldl textAfter none

/-- The previews. -/
def previews : List Eff → List String
  | [] => []
  | .preview t :: es => t :: previews es
  | _ :: es => previews es

/-- Does this event bring a new value (or the loss of one)? -/
def Event.isValue (c : Config) : Event → Bool
  | .pulse _ => true
  | .tuner _ => true
  | .bpm _ => c.resolve
  | .rig _ => c.change
  | _ => false

end PySwitch.Tempo
