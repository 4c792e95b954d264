import Verif.Model.PushButton
/-
What the push button modes are expected to do.
-/
namespace PySwitch.PushButton.Spec
open PySwitch.PushButton

/-- The states the device has been notified of, in order. -/
def notified (es : List Eff) : List Bool :=
  es.filterMap (fun e => match e with | .changed s => some s | _ => none)

/-- During the event, the callback feeds back nothing else than `s`. -/
def Confirms (s : Bool) : Option Bool → Prop
  | none => True
  | some t => t = s

/-- What a press from `pressed` to `released` (with `s` the state before the press, and nothing fed back in
between) is expected to do: the states the device is notified of at the press and at the release, the state
while the switch is pressed, and the state afterwards. -/
structure Expected where
  atPress : List Bool
  atRelease : List Bool
  during : Bool
  after : Bool

/-- The documented behaviour of the modes; `held` tells if the switch was pressed longer than the hold time. -/
def expected (mode : Mode) (s held : Bool) : Expected :=
  match mode with
  | .enable => ⟨if s then [] else [true], [], true, true⟩
  | .disable => ⟨if s then [false] else [], [], false, false⟩
  | .latch => ⟨[!s], [], !s, !s⟩
  | .momentary => ⟨if s then [] else [true], [false], true, false⟩
  | .momentaryInverse => ⟨if s then [false] else [], [true], false, true⟩
  | .holdMomentary => if held then ⟨[!s], [s], !s, s⟩ else ⟨[!s], [], !s, !s⟩
  | .oneShot => ⟨[true], [], true, false⟩
  | .noStateChange => ⟨[], [], s, s⟩

/-- A press of the switch. -/
structure Press where
  pressed : Int
  released : Int

/-- What the presses do one after another, beginning with state `s`: the notifications and the last state. -/
def expectedAll (mode : Mode) (holdTime : Int) : Bool → List Press → List Bool × Bool
  | s, [] => ([], s)
  | s, p :: ps =>
    let e := expected mode s (decide (p.released - p.pressed > holdTime))
    let rest := expectedAll mode holdTime e.after ps
    (e.atPress ++ e.atRelease ++ rest.1, rest.2)

end PySwitch.PushButton.Spec
