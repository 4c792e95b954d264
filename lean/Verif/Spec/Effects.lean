import Verif.Model.Effects
/-
Specification vocabulary for effect slots.
-/
namespace PySwitch.Effects

/-- The effect families by type number, with the name and color to be shown. Numbers: Kemper MIDI specification, as
cited in the comments of `effect_state.py:137-248`; colors: Kemper manual, as cited in `effect_state.py:38-43`. -/
def families : List (Int × Int × String × Color) :=
  let orange := (255, 125, 0)
  let red := (255, 0, 0)
  let cyan := (0, 255, 255)
  let blue := (0, 0, 255)
  let purple := (180, 0, 120)
  let yellow := (255, 255, 0)
  let white := (255, 255, 255)
  let lightGreen := (100, 255, 100)
  let green := (0, 255, 0)
  let pink := (255, 125, 70)
  [(1, 10, "Wah", orange), (11, 11, "Pitch", white), (12, 13, "Wah", orange), (17, 42, "Dist", red),
   (49, 50, "Comp", cyan), (57, 58, "Gate", cyan), (64, 64, "Space", green), (65, 67, "Chorus", blue),
   (68, 68, "Vibrato", blue), (69, 69, "Rotary", blue), (70, 70, "Tremolo", blue), (71, 71, "Chorus", blue),
   (75, 76, "Tremolo", blue), (77, 80, "Slicer", blue), (81, 91, "Phaser", purple), (97, 104, "EQ", yellow),
   (113, 116, "Boost", red), (121, 123, "Looper", pink), (129, 132, "Pitch", white), (138, 140, "Dual", lightGreen),
   (145, 166, "Delay", green), (177, 193, "Reverb", green)]

/-- A type number belongs to a family. -/
def InFamily (f : Int × Int × String × Color) (t : Int) : Prop := f.1 ≤ t ∧ t ≤ f.2.1

/-- The effect types which exist according to the comments in `effect_state.py:150-243`. -/
def documented : List Int :=
  [1, 2, 3, 4, 6, 7, 8, 9, 10, 11, 12, 13, 17, 18, 19, 20, 21, 32, 33, 34, 35, 36, 37, 38, 39, 42, 49, 50, 57, 58, 64,
   65, 66, 67, 68, 69, 70, 71, 75, 76, 77, 78, 79, 80, 81, 82, 83, 89, 91, 97, 98, 99, 100, 101, 102, 103, 104, 113,
   114, 115, 116, 121, 122, 123, 129, 130, 131, 132, 138, 139, 140, 145, 146, 147, 148, 149, 150, 151, 152, 161, 162,
   163, 164, 165, 166, 177, 178, 179, 180, 181, 182, 183, 193]

/-- The text on the label after some effects. -/
def labelText : Option String → List Eff → Option String
  | s, [] => s
  | _, .text t :: es => labelText (some t) es
  | s, _ :: es => labelText s es

/-- The LEDs after some effects: color, and bright or dimmed. -/
def leds : Option (Nat × Bool) → List Eff → Option (Nat × Bool)
  | s, [] => s
  | _, .base (.led c b) :: es => leds (some (c, b)) es
  | s, _ :: es => leds s es

end PySwitch.Effects
