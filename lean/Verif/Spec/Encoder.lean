import Verif.Model.Encoder
/-
Specification vocabulary for encoders.
-/
namespace PySwitch.Encoder

/-- The values sent among the effects. -/
def sets : List Eff → List Int
  | [] => []
  | .set v :: es => v :: sets es
  | _ :: es => sets es

/-- Is it an event of turning? -/
def Op.isTurn : Op → Bool
  | .turn _ => true
  | _ => false

/-- The nearest value in the range. -/
def limit (lo hi v : Int) : Int := max lo (min hi v)

/-- The value obtained from `v` by turning through some positions, starting at position `p`; a step of the encoder
counts `s`. (Positions times the step width are truncated to integers.) -/
def turnedValue (lo hi : Int) (s : Rat) : Int → Int → List Int → Int
  | _, v, [] => v
  | p, v, q :: qs => turnedValue lo hi s q (limit lo hi (v + (pyInt (q * s) - pyInt (p * s)))) qs

end PySwitch.Encoder
