import Verif.Model.Simple

/-!
Specification for switches with the simple actions.
-/

namespace PySwitch.Spec.Simple
open PySwitch.Simple

/-- Something when the pin goes from high to low, something else when it goes back, and nothing
otherwise. `before` is the level before the first reading. -/
def byEdge (down : Reading → List Out) (up : List Out) : Bool → List Reading → List (List Out)
  | _, [] => []
  | before, r :: rs =>
    (if before && !r.level then down r else if !before && r.level then up else [])
      :: byEdge down up r.level rs

/-- The raw message of each entry, as far as it is not empty. -/
def messages (l : List (List Nat)) : List Out := (l.filter (· ≠ [])).map .midi

/-- A custom message with all its parameters. -/
structure Custom where
  message : List Nat
  release : Option (List Nat)
  text : String := ""
  color : Color := ⟨255, 255, 255⟩
  brightness : Rat := 15 / 100

def Custom.action (c : Custom) : Action :=
  .customMessage c.message c.release c.text c.color c.brightness

/-- The message on releasing the switch, empty if there is none. -/
def Custom.releaseBytes (c : Custom) : List Nat := c.release.getD []

end PySwitch.Spec.Simple
