import Verif.Model.Boomerang
/-
Specification vocabulary for the Boomerang actions.
-/
namespace PySwitch.Boomerang
open PySwitch.Local

/-- The raw messages among some effects. -/
def sent : List RotateEff → List (List Nat)
  | [] => []
  | .send m :: es => m :: sent es
  | _ :: es => sent es

/-- The color the LED has after some effects. -/
def led : Option Nat → List RotateEff → Option Nat
  | c, [] => c
  | _, .led c :: es => led (some c) es
  | c, _ :: es => led c es

/-- The programs to be selected by a history of presses and releases: two programs in turn. `k` releases have been
before. -/
def turns (a b : Nat) : Nat → List RotateEvent → List Nat
  | _, [] => []
  | k, .push :: es => (if k % 2 = 0 then a else b) :: turns a b k es
  | k, .release :: es => turns a b (k + 1) es
  | k, .display :: es => turns a b k es

/-- The number of releases. -/
def releases : List RotateEvent → Nat
  | [] => 0
  | .release :: es => releases es + 1
  | _ :: es => releases es

/-- The two programs of each function, as listed in the project's own expectations, `test/pyswitch/test_boomerang.py:32-43`. -/
def listed : Fn → Nat × Nat
  | .copy => (1, 4)
  | .muteThru => (3, 8)
  | .octave => (2, 49)
  | .once => (10, 18)
  | .panic => (11, 40)
  | .stack => (15, 23)
  | .erase => (16, 61)
  | .playStopAll => (17, 25)
  | .fade => (21, 32)
  | .eraseAll => (28, 35)
  | .syncSerial => (43, 65)
  | .reverse => (47, 56)

end PySwitch.Boomerang
