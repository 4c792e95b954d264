import Verif.Model.Switch
/-
What a switch is expected to do, independent of its internal state.
-/
namespace PySwitch.Switch.Spec
open PySwitch.Switch

/-- Edge detection: push all enabled actions when the switch goes down, release them when it goes up.
`before` is the previous hardware state. -/
def edges (actions : List Nat) (before : Bool) : List Sample → List (List Eff)
  | [] => []
  | s :: ss =>
    (if s.pushed && !before then (actions.filter s.enabled).map .push
     else if !s.pushed && before then (actions.filter s.enabled).map .release
     else []) :: edges actions s.pushed ss

/-- A click on each of the enabled actions: push and release. -/
def click (actions : List Nat) (s : Sample) : List Eff :=
  (actions.filter s.enabled).flatMap (fun a => [.push a, .release a])

/-- Short/long press. The switch went down at `t0`; `ss` are the following samples up to (and including) the
first released one. The hold actions are clicked with the first sample more than `holdTime` after `t0`. If
there is none, the normal actions are clicked at the end (on release). -/
def shortOrLong (actions hold : List Nat) (holdTime t0 : Int) : List Sample → List (List Eff)
  | [] => []
  | s :: ss =>
    if s.now - t0 > holdTime then click hold s :: ss.map (fun _ => [])
    else (if ss.isEmpty then click actions s else []) :: shortOrLong actions hold holdTime t0 ss

/-- Repeated hold. `last` is the time of the press or of the last firing, `fired` tells if the hold actions
have been fired. -/
def repeated (actions hold : List Nat) (holdTime : Int) (last : Int) (fired : Bool) :
    List Sample → List (List Eff)
  | [] => []
  | s :: ss =>
    if s.now - last > holdTime then click hold s :: repeated actions hold holdTime s.now true ss
    else (if ss.isEmpty && !fired then click actions s else [])
      :: repeated actions hold holdTime last fired ss

/-- The time of the last firing (or of the press) after the samples `ss`. -/
def lastFire (H : Int) : Int → List Sample → Int
  | last, [] => last
  | last, s :: ss => if s.now - last > H then lastFire H s.now ss else lastFire H last ss

/-- One press as seen by the switch: it is down in `first` and all of `held`, up in `last`, and no override is
installed. -/
structure Press where
  first : Sample
  held : List Sample
  last : Sample

def Press.samples (p : Press) : List Sample := p.first :: (p.held ++ [p.last])

def Press.Ok (p : Press) : Prop :=
  p.first.pushed = true ∧ (∀ s ∈ p.held, s.pushed = true) ∧ p.last.pushed = false ∧
  (∀ s ∈ p.samples, s.override = none)

/-- A history of a switch: single samples of the released switch, and presses. -/
inductive Block where
  | idle (s : Sample)
  | press (p : Press)

def Block.samples : Block → List Sample
  | .idle s => [s]
  | .press p => p.samples

def Block.Ok : Block → Prop
  | .idle s => s.pushed = false
  | .press p => p.Ok

/-- The events of one action in a trace: `true` for push, `false` for release. -/
def eventsOf (a : Nat) (es : List Eff) : List Bool :=
  es.filterMap fun
    | .push b => if b = a then some true else none
    | .release b => if b = a then some false else none
    | _ => none

/-- Push, release, push, release, ... -/
def Alternates : Bool → List Bool → Prop
  | _, [] => True
  | next, b :: bs => b = next ∧ Alternates (!next) bs

/-- Calls of the switch's own actions. -/
def own (es : List Eff) : List Eff :=
  es.filter fun
    | .push _ => true
    | .release _ => true
    | _ => false

end PySwitch.Switch.Spec
