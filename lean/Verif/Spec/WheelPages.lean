import Verif.Model.WheelPages
import Verif.Spec.Encoder

/-!
What a wheel with several actions has to do: each action follows the wheel while it is enabled, and only then.
-/

namespace PySwitch.WheelPages.Spec
open PySwitch.Encoder (Eff limit)

/-- The readings of the wheel as one action sees them: the position, and is the action enabled? -/
def readings (i : Nat) : List (Int × (Nat → Bool)) → List (Int × Bool)
  | [] => []
  | (p, on) :: rs => (p, on i) :: readings i rs

/-- What the value of an action should be after these readings. A turn between two readings counts if the action has been
enabled at both of them (`prev` is the position of the reading before, if it was enabled then). `s` is the step width. -/
def followed (lo hi : Int) (s : Rat) : Option Int → Int → List (Int × Bool) → Int
  | _, v, [] => v
  | some q, v, (p, true) :: rs => followed lo hi s (some p) (limit lo hi (v + (pyInt (p * s) - pyInt (q * s)))) rs
  | none, v, (p, true) :: rs => followed lo hi s (some p) v rs
  | _, v, (_, false) :: rs => followed lo hi s none v rs

/-- The wheel has the same position as before whenever the action is enabled again (`last` is the position when it was enabled
the last time, `on` tells if it was enabled at the last reading). -/
def Returns : (last : Option Int) → (on : Bool) → List (Int × Bool) → Prop
  | _, _, [] => True
  | last, on, (p, true) :: rs => (on = true ∨ last = none ∨ last = some p) ∧ Returns (some p) true rs
  | last, _, (_, false) :: rs => Returns last false rs

/-- The values which one action has sent. -/
def sent (i : Nat) : List (Nat × Eff) → List Int
  | [] => []
  | (j, .set v) :: es => if j = i then v :: sent i es else sent i es
  | _ :: es => sent i es

/-- All values which have been sent, with the action. -/
def sets : List (Nat × Eff) → List (Nat × Int)
  | [] => []
  | (j, .set v) :: es => (j, v) :: sets es
  | _ :: es => sets es

/-- What has been done to a display, which belongs to the actions of `on`: the last value which has been shown, and the action
which has shown it. -/
def lastShown (on : Nat → Bool) : Option (Nat × Int) → List (Nat × Eff) → Option (Nat × Int)
  | x, [] => x
  | x, (j, .preview v) :: es => lastShown on (if on j then some (j, v) else x) es
  | x, _ :: es => lastShown on x es

/-- What the display shows: as `lastShown`, but nothing after it has been reset. (Resets after a timeout count as well.) -/
def display (on : Nat → Bool) : Option (Nat × Int) → List (Nat × Eff) → Option (Nat × Int)
  | x, [] => x
  | x, (j, .preview v) :: es => display on (if on j then some (j, v) else x) es
  | x, (j, .previewReset _) :: es => display on (if on j then none else x) es
  | x, _ :: es => display on x es

/-- Does the action use this display? -/
def uses (as : List Action) (l i : Nat) : Bool := (as[i]?.bind Action.label) == some l

/-- Has the action an accept button? Then it does not change its value directly. -/
def preselects (as : List Action) (i : Nat) : Bool := (as[i]?.map fun a => a.enc.preselect).getD false

end PySwitch.WheelPages.Spec
