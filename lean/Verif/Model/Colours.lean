import Verif.Model.Properties
/-!
Model of the colour inputs of the web application: a text, a list of known colours and an input of the browser for colours
(`web/htdocs/js/ui/parser/ActionProperties.js:532-580`, `web/htdocs/js/ui/misc/ParameterList.js:267-321`, which do the same;
`web/htdocs/js/misc/Tools.js:66-95`, `web/htdocs/js/model/parser/Parser.js:347-376`, `content/lib/pyswitch/colors.py:2-23`). Numbers are exact.
-/

namespace PySwitch.Colours
open PySwitch.Properties (Text lit isWhite digits parseInt intText)

/-- `String.replace` of JavaScript with an empty text: takes out the first occurrence. -/
def removeFirst (p : Text) : Text → Text
  | [] => []
  | c :: cs => if p.isPrefixOf (c :: cs) then (c :: cs).drop p.length else c :: removeFirst p cs

/-- `String.split(",")` of JavaScript. -/
def commas : Text → List Text
  | [] => [[]]
  | c :: cs =>
    if c = ',' then [] :: commas cs
    else
      match commas cs with
      | [] => [[c]]
      | x :: xs => (c :: x) :: xs

/-- `Number.toString(16)` of JavaScript, for whole numbers and `NaN`. -/
def toHex : Option Int → Text
  | none => lit "NaN"
  | some (.ofNat n) => Nat.toDigits 16 n
  | some (.negSucc n) => '-' :: Nat.toDigits 16 (n + 1)

/-- `Tools.js:83-86` `componentToHex`. -/
def componentToHex (c : Option Int) : Text := if (toHex c).length = 1 then '0' :: toHex c else toHex c

/-- A part of the list; `parseInt(undefined)` is `NaN`. (`Tools.js:90-92`.) -/
def component (comps : List Text) (i : Nat) : Option Int := (comps[i]?).bind parseInt

/-- `Tools.js:82-95` `rgbToHex`. -/
def rgbToHex (rgb : Text) : Text :=
  let comps := commas (removeFirst (lit "rgb") (removeFirst (lit "rgba") (removeFirst [')'] (removeFirst ['('] rgb))))
  '#' :: (componentToHex (component comps 0) ++ componentToHex (component comps 1) ++ componentToHex (component comps 2))

/-- `parseInt` with base 16 and without a sign. -/
def parseHexNat (t : Text) : Option Nat :=
  let t := match t with
    | '0' :: 'x' :: rest => rest
    | '0' :: 'X' :: rest => rest
    | t => t
  match digits 16 t with
  | [] => none
  | ds => some (ds.foldl (fun n d => n * 16 + d) 0)

/-- `parseInt` of JavaScript with base 16. -/
def parseHex (t : Text) : Option Int :=
  match t.dropWhile isWhite with
  | '-' :: rest => (parseHexNat rest).map fun n => -(n : Int)
  | '+' :: rest => (parseHexNat rest).map fun n => (n : Int)
  | rest => (parseHexNat rest).map fun n => (n : Int)

/-- `Tools.js:69-77` `hexToRgb` for texts which begin with `#`, as all values of colour inputs. -/
def hexToRgb (color : Text) : Option Int × Option Int × Option Int :=
  (parseHex ((color.drop 1).take 2), parseHex ((color.drop 3).take 2), parseHex ((color.drop 5).take 2))

/-- A number as part of a text. -/
def numText : Option Int → Text
  | none => lit "NaN"
  | some n => intText n

/-- The user chooses a colour with the colour input: the new text. (`ActionProperties.js:567-571`, `ParameterList.js:306-310`.) -/
def choose (value : Text) : Text :=
  let rgb := hexToRgb value
  ['('] ++ numText rgb.1 ++ [',', ' '] ++ numText rgb.2.1 ++ [',', ' '] ++ numText rgb.2.2 ++ [')']

/-- The known colours, as extracted from the code. (`colors.py:2-23`, `Parser.js:364-376`, `ClassItemExtractor.py:76-96`.) -/
def known : List (Text × Text) :=
  [(lit "Colors.WHITE", lit "(255, 255, 255)"), (lit "Colors.YELLOW", lit "(255, 255, 0)"), (lit "Colors.DARK_YELLOW", lit "(130, 130, 0)"),
    (lit "Colors.ORANGE", lit "(255, 125, 0)"), (lit "Colors.RED", lit "(255, 0, 0)"), (lit "Colors.LIGHT_RED", lit "(255, 100, 100)"),
    (lit "Colors.PINK", lit "(255, 125, 70)"), (lit "Colors.PURPLE", lit "(180, 0, 120)"), (lit "Colors.DARK_PURPLE", lit "(100, 0, 65)"),
    (lit "Colors.LIGHT_GREEN", lit "(100, 255, 100)"), (lit "Colors.GREEN", lit "(0, 255, 0)"), (lit "Colors.DARK_GREEN", lit "(73, 110, 41)"),
    (lit "Colors.TURQUOISE", lit "(64, 242, 208)"), (lit "Colors.CYAN", lit "(0, 255, 255)"), (lit "Colors.BLUE", lit "(0, 0, 255)"),
    (lit "Colors.LIGHT_BLUE", lit "(100, 100, 255)"), (lit "Colors.DARK_BLUE", lit "(0, 0, 120)"), (lit "Colors.GRAY", lit "(190, 190, 190)"),
    (lit "Colors.DARK_GRAY", lit "(50, 50, 50)"), (lit "Colors.BLACK", lit "(0, 0, 0)")]

/-- `Parser.js:347-359` `resolveColor`. -/
def resolveColor (value : Text) : Text :=
  if (lit "Colors").isPrefixOf value then
    match known.find? fun c => c.1 == value with
    | some c => c.2
    | none => value
  else value

/-- A hexadecimal digit. -/
def isHex (c : Char) : Bool := (PySwitch.Properties.digitOf 16 c).isSome

/-- What a colour input of the browser makes of a value (HTML specification: "value sanitization algorithm" of colours). -/
def sanitize (v : Text) : Text :=
  if v.length = 7 ∧ v.head? = some '#' ∧ (v.drop 1).all isHex = true then v.map Char.toLower else lit "#000000"

/-- What the colour input shows for a text; it is left as it is if the text is empty. (`ActionProperties.js:536-541`, `ParameterList.js:273-278`.) -/
def shown (before text : Text) : Text := if resolveColor text = [] then before else sanitize (rgbToHex (resolveColor text))

end PySwitch.Colours
