import Verif.Model.LabelText
/-
Model of the functions converting values to the texts shown for them: `content/lib/pyswitch/clients/kemper/actions/amp.py:37-38`,
`actions/rig_transpose.py:39-41`, `actions/tempo_bpm.py:37-38`, `actions/bank_select_encoder.py:71-72` and
`callbacks/convert_volume.py`. Floats are rational numbers (rounding errors of floats are not modelled).
-/
namespace PySwitch.Convert

/-- `str(round(x, 1))`: one digit behind the point. (Negative numbers rounded to zero give `-0.0`.).
(Used in `amp.py:37-38` and `convert_volume.py:4-10`.) -/
def oneDigit (x : Rat) : String :=
  let t := (pyRound (10 * x)).natAbs
  (if x < 0 then "-" else "") ++ toString (t / 10) ++ "." ++ toString (t % 10)

/-- `amp.py:37-38` `_convert_gain`. -/
def gain (v : Int) : String := "Gain: " ++ oneDigit ((v : Rat) / (16383 / 10))

/-- `rig_transpose.py:39-41` `_convert_transpose`. -/
def transpose (v : Int) : String :=
  let halfsteps := v - 64
  "Transpose: " ++ (if halfsteps > 0 then "+" else "") ++ toString halfsteps

/-- `tempo_bpm.py:37-38` with `mappings/tempo_bpm.py:32-33`. -/
def bpm (v : Int) : String := toString (pyRound ((v : Rat) / 64)) ++ " bpm"

/-- `bank_select_encoder.py:71-72`. -/
def bank (v : Int) : String := "Bank " ++ toString (v + 1)

/-- `convert_volume.py:4-8`. -/
def decibels (value : Int) (offset : Rat) : Rat :=
  if value ≥ 30 then value * (24 / 100) - 24 + offset
  else -(1666666666 / 10000000) / (value + 2) - 116 / 10 + offset

/-- `convert_volume.py:4-10`. -/
def volume (value : Int) (offset : Rat) : String :=
  let out := decibels value offset
  (if out > 0 then "+" else "") ++ oneDigit out ++ "dB"

end PySwitch.Convert
