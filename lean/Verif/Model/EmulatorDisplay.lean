/-!
Model of the display and the LEDs of the emulated controller (`web/htdocs/python/wrappers/wrap_adafruit_display.py`, `WrapDisplayDriver.py`,
`wrap_adafruit_led.py`): wrapping of texts, positions of lines, painting of rectangles and groups, and colors of LEDs.

Widths of texts are a parameter (`measureText` of the browser). Numbers are rational.
-/

namespace PySwitch.EmulatorDisplay

abbrev Text := List Char

/-! ### Wrapping -/

/-- `str.split()` (used in `wrap_adafruit_display.py:89`): the words between blank characters. `cur` is the word so far. -/
def splitGo (blank : Char → Bool) : Text → Text → List Text
  | cur, [] => if cur = [] then [] else [cur]
  | cur, c :: r =>
    if blank c then (if cur = [] then splitGo blank [] r else cur :: splitGo blank [] r)
    else splitGo blank (cur ++ [c]) r

/-- See `splitGo` (`wrap_adafruit_display.py:89`). -/
def split (blank : Char → Bool) (s : Text) : List Text := splitGo blank [] s

/-- `wrap_adafruit_display.py:91-103`: the loop, with the current line. -/
def wrapLoop (width : Text → Rat) (max : Rat) : Text → List Text → List Text
  | line, [] => if line = [] then [] else [line]
  | line, w :: ws =>
    if width (line ++ ' ' :: w) > max then line :: wrapLoop width max w ws
    else wrapLoop width max (line ++ ' ' :: w) ws

/-- `wrap_adafruit_display.py:77-105` `wrap_text_to_pixels`. -/
def wrap (blank : Char → Bool) (width : Text → Rat) (max : Rat) (s : Text) : List Text := wrapLoop width max [] (split blank s)

/-- `str.join` with line feeds (`content/lib/pyswitch/ui/elements.py:206`). -/
def joinLines : List Text → Text
  | [] => []
  | [l] => l
  | l :: m :: r => l ++ '\n' :: joinLines (m :: r)

/-- `str.splitlines()` for texts whose only line breaks are line feeds (`wrap_adafruit_display.py:54`). `cur` is the line so far. -/
def linesGo : Text → Text → List Text
  | cur, [] => if cur = [] then [] else [cur]
  | cur, c :: r => if c = '\n' then cur :: linesGo [] r else linesGo (cur ++ [c]) r

/-- See `linesGo` (`wrap_adafruit_display.py:54`). -/
def splitLines (s : Text) : List Text := linesGo [] s

/-! ### Positions of lines -/

/-- The arguments of a label (`wrap_adafruit_display.py:40-48`), the size of the font, and where the group of the label is. -/
structure Label where
  anchorX : Rat
  anchorY : Rat
  posX : Rat
  posY : Rat
  spacing : Rat
  size : Rat
  x : Rat
  y : Rat

/-- `wrap_adafruit_display.py:58-60`: line spacing and height for `n` lines. -/
def Label.lineSpacing (l : Label) : Rat := l.spacing * l.size * (1 / 10)
/-- See above (`wrap_adafruit_display.py:60`). -/
def Label.height (l : Label) (n : Nat) : Rat := n * l.size + (n - 1) * l.lineSpacing

/-- `wrap_adafruit_display.py:65-72`, with `WrapFont.offset_x`, `offset_y` (121-125): left end and base line of line `i` of `n`, for its width. -/
def Label.place (l : Label) (n i : Nat) (width : Rat) : Rat × Rat :=
  (l.posX + l.x - l.anchorX * width + 0,
   l.posY + l.y + (-l.anchorY * l.height n + (i + 1) * l.size + i * l.lineSpacing) + -l.size * (15 / 100))

/-! ### Painting -/

abbrev Color := Nat × Nat × Nat

/-- Rectangles and groups (`wrap_adafruit_display.py:4-24, 137-156`). Labels are left out here. -/
inductive Node where
  | rect (x y w h : Int) (fill : Color)
  | group (x y : Int) (items : List Node)

mutual
/-- `wrap_adafruit_display.py:22-24, 148-156` `render`: the calls of `fillRect`. -/
def Node.render (dx dy : Int) : Node → List ((Int × Int × Int × Int) × Color)
  | .rect x y w h fill => [((x + dx, y + dy, w, h), fill)]
  | .group x y items => Node.renderAll (dx + x) (dy + y) items
/-- The loop over the items (`wrap_adafruit_display.py:23`). -/
def Node.renderAll (dx dy : Int) : List Node → List ((Int × Int × Int × Int) × Color)
  | [] => []
  | n :: ns => n.render dx dy ++ Node.renderAll dx dy ns
end

/-- `fillRect` for one pixel (used in `wrap_adafruit_display.py:151`, `WrapDisplayDriver.py:29`). -/
def covers (r : Int × Int × Int × Int) (px py : Int) : Bool := r.1 ≤ px && px < r.1 + r.2.2.1 && r.2.1 ≤ py && py < r.2.1 + r.2.2.2

/-- `WrapDisplayDriver.py:17-37` `update`: the color of a pixel after all calls; the canvas is black at first. -/
def paint (splash : List Node) (px py : Int) : Color :=
  (Node.renderAll 0 0 splash).foldl (fun c r => if covers r.1 px py then r.2 else c) (0, 0, 0)

/-! ### LEDs -/

/-- How a LED is shown (`wrap_adafruit_led.py:26-29, 40`). -/
inductive Shown where
  | transparent
  | rgb (r g b : Rat)
deriving DecidableEq

/-- `wrap_adafruit_led.py:31-38` `trans`, `clip`, for `v * 3`. The browser shows components over 255 as 255. `f` is `x ↦ x ^ 0.28`. -/
def component (f : Rat → Rat) (v : Nat) : Rat :=
  let x := f ((v : Rat) * 3 / 255) * 255
  let x := if x < 256 then x else 255
  if x ≤ 255 then x else 255

/-- `wrap_adafruit_led.py:14-40` `__setitem__`: what the LED shows. -/
def ledShown (f : Rat → Rat) (c : Color) : Shown :=
  if c = (0, 0, 0) then .transparent else .rgb (component f c.1) (component f c.2.1) (component f c.2.2)

/-- `wrap_adafruit_led.py:14-24, 50-54`: the LEDs after colors have been set, in order. -/
def ledRun (f : Rat → Rat) (n : Nat) (sets : List (Nat × Color)) : List (Option Shown) :=
  sets.foldl (fun l s => l.set s.1 (some (ledShown f s.2))) (List.replicate n none)

end PySwitch.EmulatorDisplay
