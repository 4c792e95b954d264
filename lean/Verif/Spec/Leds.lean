import Verif.Model.Leds
namespace PySwitch.Leds.Spec
open PySwitch.Leds

/-- A channel value for a LED. -/
def Color.Valid (c : Color) : Prop := (0 ≤ c.r ∧ c.r ≤ 255) ∧ (0 ≤ c.g ∧ c.g ≤ 255) ∧ (0 ≤ c.b ∧ c.b ≤ 255)

/-- The actions of a switch which show something on its LEDs at the moment, in order. -/
def showing (A : Actions) (sw : Switch) : List Nat := sw.actions.filter (fun b => A.usesLeds b && A.enabled b)

/-- The switch is set up properly: one color and brightness per LED, its LEDs are different ones of the strip, and
the strip shows the colors with the brightnesses. -/
structure Lit (leds : Strip) (sw : Switch) : Prop where
  colors : sw.colors.length = sw.pixels.length
  brightnesses : sw.brightnesses.length = sw.pixels.length
  nodup : sw.pixels.Nodup
  inStrip : ∀ p ∈ sw.pixels, p < leds.length

/-- The strip shows color times brightness at LED number `i` of the switch. -/
def Shows (leds : Strip) (sw : Switch) (i : Nat) : Prop :=
  ∃ p c b, sw.pixels[i]? = some p ∧ sw.colors[i]? = some c ∧ sw.brightnesses[i]? = some b ∧
    leds[p]? = some ⟨(c.r * b : Rat).floor, (c.g * b : Rat).floor, (c.b * b : Rat).floor⟩

end PySwitch.Leds.Spec
