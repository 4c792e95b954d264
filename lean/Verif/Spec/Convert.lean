import Verif.Model.Convert
/-
Specification vocabulary for the texts of values.
-/
namespace PySwitch.Convert

/-- The usual notation of a number of tenths: `-12` is written `-1.2`. -/
def decimalText (n : Int) : String :=
  (if n < 0 then "-" else "") ++ toString (n.natAbs / 10) ++ "." ++ toString (n.natAbs % 10)

/-- The same with a plus sign for positive numbers. -/
def signedText (n : Int) : String := (if n > 0 then "+" else "") ++ decimalText n

end PySwitch.Convert
