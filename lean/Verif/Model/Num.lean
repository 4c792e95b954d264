/-
Numbers and colors. Python floats are modelled by rational numbers: rounding of floats is not modelled.
-/
namespace PySwitch

/-- Python `int(x)` of a float: truncation towards zero. (No code of its own: Python, used e.g. in `AnalogAction.py:116`.) -/
def pyInt (x : Rat) : Int := if 0 ≤ x then x.floor else -((-x).floor)

/-- Python `round(x)` of a float: the nearest integer, halves to the even one.
(No code of its own: Python, used e.g. in `AnalogAction.py:115`.) -/
def pyRound (x : Rat) : Int :=
  let f := x.floor
  if x - f < 1 / 2 then f
  else if 1 / 2 < x - f then f + 1
  else if f % 2 = 0 then f
  else f + 1

/-- A color tuple. (`content/lib/pyswitch/colors.py:4-26`.) -/
structure Color where
  r : Int
  g : Int
  b : Int
deriving Repr, DecidableEq

/-- A color argument: a single color, or a non-empty tuple (list) of colors, `colors.py:36`. -/
inductive ColorArg where
  | single (c : Color)
  | multi (c : Color) (cs : List Color)
deriving Repr, DecidableEq

/-- Channelwise `int(c * factor)`: `colors.py:36-48` and `controller/inputs.py:229-233`. -/
def Color.scale (c : Color) (factor : Rat) : Color :=
  ⟨pyInt (c.r * factor), pyInt (c.g * factor), pyInt (c.b * factor)⟩

/-- `colors.py:34-48` `dim_color`. -/
def dimColor (c : ColorArg) (factor : Rat) : ColorArg :=
  match c with
  | .single c => .single (c.scale factor)
  | .multi c cs => .multi (c.scale factor) (cs.map (·.scale factor))

end PySwitch
