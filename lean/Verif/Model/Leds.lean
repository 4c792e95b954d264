import Verif.Model.Num
/-
Model of the LED handling of switches and actions: `content/lib/pyswitch/controller/inputs.py:165-236` and
`content/lib/pyswitch/controller/actions/__init__.py:76-118, 155-190`.
-/
namespace PySwitch.Leds

/-- The exceptions of the LED code: a wrong number of values, an action which is not among the actions of its
switch, or a pixel which does not exist on the strip.
(`controller/inputs.py:165-236`, `controller/actions/__init__.py:164-169`.) -/
inductive LedErr where
  | count | notFound | index
deriving Repr, DecidableEq

/-- The LED strip: one color per LED. (`hardware/adafruit/__init__.py:96-107`.) -/
abbrev Strip := List Color

/-- `inputs.py:27-42` the LED related part of a switch. `actions` are the (normal and hold) actions, line 150. -/
structure Switch where
  pixels : List Nat
  colors : List Color
  brightnesses : List Rat
  actions : List Nat := []
deriving Repr, DecidableEq

/-- `inputs.py:173-180` the setter of `colors`. -/
def setColors (sw : Switch) (colors : List Color) : Except LedErr Switch :=
  if colors.length ≠ sw.pixels.length then .error .count else .ok { sw with colors }

/-- `inputs.py:193-195` the setter of `color`. -/
def setColor (sw : Switch) (color : Color) : Switch :=
  { sw with colors := (List.range sw.pixels.length).foldl (fun cs i => cs.set i color) sw.colors }

/-- `inputs.py:228-234`: the loop writing the LEDs, for position `i` and the following ones (`n` in number). -/
def writeLoop (sw : Switch) (bs : List Rat) : Nat → Nat → Strip → Strip × Option LedErr
  | 0, _, leds => (leds, none)
  | n + 1, i, leds =>
    match sw.pixels[i]?, sw.colors[i]?, bs[i]? with
    | some pixel, some c, some b =>
      if pixel < leds.length then writeLoop sw bs n (i + 1) (leds.set pixel (c.scale b))
      else (leds, some .index)
    | _, _, _ => (leds, some .index)

/-- `inputs.py:219-236` the setter of `brightnesses`. -/
def setBrightnesses (leds : Strip) (sw : Switch) (bs : List Rat) : Strip × Switch × Option LedErr :=
  if sw.pixels = [] then (leds, sw, none)
  else if bs.length ≠ sw.pixels.length then (leds, sw, some .count)
  else
    match writeLoop sw bs sw.pixels.length 0 leds with
    | (leds', some e) => (leds', sw, some e)
    | (leds', none) => (leds', { sw with brightnesses := bs }, none)

/-- `inputs.py:206-212` the setter of `brightness`. -/
def setBrightness (leds : Strip) (sw : Switch) (b : Rat) : Strip × Switch × Option LedErr :=
  setBrightnesses leds sw (sw.pixels.map (fun _ => b))

/-- The attributes of the actions: `uses_switch_leds` and `enabled`. (`controller/actions/__init__.py:36-67`.) -/
structure Actions where
  usesLeds : Nat → Bool
  enabled : Nat → Bool

/-- `actions/__init__.py:164-169` `get_index_among_led_actions`: the first position. -/
def indexOf (a : Nat) : List Nat → Option Nat
  | [] => none
  | b :: bs => if b = a then some 0 else (indexOf a bs).map (· + 1)

/-- `actions/__init__.py:155-190` `__get_led_segments` of the action `a`. -/
def segments (A : Actions) (sw : Switch) (a : Nat) : Except LedErr (List Nat) :=
  if sw.pixels = [] || !A.usesLeds a || !A.enabled a then .ok []
  else
    let ledActions := sw.actions.filter (fun b => A.usesLeds b && A.enabled b)
    match indexOf a ledActions with
    | none => .error .notFound
    | some index =>
      let num := sw.pixels.length
      if ledActions.length = 1 then .ok (List.range num)
      else if ledActions.length < num then
        let first := num - ledActions.length + 1
        if index = 0 then .ok (List.range first) else .ok [first + index - 1]
      else if index < num then .ok [index]
      else .ok []

/-- `actions/__init__.py:77-98`: the colors for some segments put into the colors of the switch. -/
def fill (segs : List Nat) (color : ColorArg) (colors : List Color) : List Color :=
  match color with
  | .single c => segs.foldl (fun cs s => cs.set s c) colors
  | .multi c cs =>
    let all := c :: cs
    if segs.length = all.length then
      (segs.zip all).foldl (fun acc p => acc.set p.1 p.2) colors
    else segs.foldl (fun acc s => acc.set s (all.getD (all.length / 2) c)) colors

/-- `actions/__init__.py:77-98` the setter of `switch_color` of an action. -/
def setSwitchColor (A : Actions) (sw : Switch) (a : Nat) (color : ColorArg) : Except LedErr Switch :=
  match segments A sw a with
  | .error e => .error e
  | .ok [] => .ok sw
  | .ok (s :: segs) => setColors sw (fill (s :: segs) color sw.colors)

/-- `actions/__init__.py:108-118` the setter of `switch_brightness` of an action. -/
def setSwitchBrightness (A : Actions) (leds : Strip) (sw : Switch) (a : Nat) (b : Rat) :
    Strip × Switch × Option LedErr :=
  match segments A sw a with
  | .error e => (leds, sw, some e)
  | .ok [] => (leds, sw, none)
  | .ok (s :: segs) => setBrightnesses leds sw ((s :: segs).foldl (fun bs s => bs.set s b) sw.brightnesses)

end PySwitch.Leds
