/-!
Model of the list of fonts of the display editor (`web/htdocs/js/model/parser/Parser.js:403-414`, `web/htdocs/js/ui/editors/display/types/DisplayLabelTypeLayout.js:18-34`,
`TunerDisplayTypeParameterList.js:159-170`, which do the same).

Simplified: the sort of the browser is a stable insertion sort. This only matters for fonts without number, for which the order is not specified.
-/
namespace PySwitch.FontList

/-- The digits of a name: `replace(/[^0-9]/g, '')`. (`Parser.js:407`, `DisplayLabelTypeLayout.js:19`.) -/
def digits (font : List Char) : List Char := font.filter Char.isDigit

/-- `getSortCriteria` (`Parser.js:406-408`) and `getFontSize` (`DisplayLabelTypeLayout.js:18-20`); `none` is `NaN`. -/
def size (font : List Char) : Option Nat :=
  match digits font with
  | [] => none
  | ds => some (Nat.ofDigitChars 10 ds 0)

/-- `Parser.js:411`: is the difference of the sizes greater than 0? With `NaN` it is not. -/
def greater (a b : List Char) : Bool :=
  match size a, size b with
  | some m, some n => decide (m > n)
  | _, _ => false

/-- One step of the sort. (`Parser.js:411`, see the simplification above.) -/
def insert (a : List Char) : List (List Char) → List (List Char)
  | [] => [a]
  | b :: bs => if greater a b then b :: insert a bs else a :: b :: bs

/-- `Parser.js:410-411`: the fonts in the order in which they are shown. -/
def sort : List (List Char) → List (List Char)
  | [] => []
  | a :: as => insert a (sort as)

/-- `replace('/fonts/', '')`: the first occurrence is removed. (`DisplayLabelTypeLayout.js:30`.) -/
def removeFirst (pattern : List Char) : List Char → List Char
  | [] => []
  | c :: cs => if (c :: cs).take pattern.length = pattern then (c :: cs).drop pattern.length else c :: removeFirst pattern cs

/-- An option of the selection. (`DisplayLabelTypeLayout.js:28-31`.) -/
structure Option' where
  value : List Char
  text : List Char
deriving DecidableEq, Repr

/-- A number as text. (`DisplayLabelTypeLayout.js:30`.) -/
def sizeText : Option Nat → List Char
  | none => ['N', 'a', 'N']
  | some n => Nat.toDigits 10 n

/-- `DisplayLabelTypeLayout.js:27-32`. -/
def optionOf (font : List Char) : Option' :=
  ⟨['"'] ++ font ++ ['"'], removeFirst "/fonts/".toList font ++ " (".toList ++ sizeText (size font) ++ "px)".toList⟩

/-- `DisplayLabelTypeLayout.js:26-33`. -/
def options (fonts : List (List Char)) : List Option' := (sort fonts).map optionOf

/-- `web/htdocs/definitions/fonts.json`. -/
def shipped : List String := ["/fonts/PT60.pcf", "/fonts/PT75.pcf", "/fonts/H15.pcf", "/fonts/RB80.pcf", "/fonts/L100.pcf", "/fonts/OS9.pcf", "/fonts/OS8.pcf", "/fonts/A15.pcf", "/fonts/A12.pcf",
  "/fonts/R25.pcf", "/fonts/PT40.pcf", "/fonts/OS10.pcf", "/fonts/PTSans-NarrowBold-40.pcf", "/fonts/H20.pcf", "/fonts/IL9.pcf", "/fonts/VM9.pcf"]

end PySwitch.FontList
