/-!
Names of fonts: a family, the height in pixels, and the extension.
-/
namespace PySwitch.FontList.Spec

/-- The file of the font of a family with the height. The family has no digits. -/
structure Named (font family : List Char) (height : Nat) : Prop where
  file : font = "/fonts/".toList ++ (family ++ Nat.toDigits 10 height ++ ".pcf".toList)
  noDigits : ∀ c ∈ family, c.isDigit = false

end PySwitch.FontList.Spec
