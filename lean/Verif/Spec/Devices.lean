import Verif.Model.Devices
/-
Specification vocabulary for the device tables and the LEDs of all switches.
-/
namespace PySwitch.Devices.Spec
open PySwitch.Leds PySwitch.Devices

/-- The device tables. -/
def IsDevice (d : List Input) : Prop := d = midicaptain10 ∨ d = midicaptainMini6 ∨ d = midicaptainNano4

/-- A configuration: different inputs of one device, as many as one likes, in any order. -/
structure Config (d inputs : List Input) : Prop where
  device : IsDevice d
  known : ∀ i ∈ inputs, i ∈ d
  different : inputs.Nodup

/-- The LEDs of input number `k` of a configuration. -/
def pixelsOf (inputs : List Input) (k : Nat) : List Nat := (inputs[k]?.map (·.pixels)).getD []

/-- Wiring of switches with the LEDs of a strip: no LED is used twice, all exist. -/
structure Wiring (n : Nat) (px : Nat → List Nat) : Prop where
  nodup : ∀ k, (px k).Nodup
  exists_ : ∀ k, ∀ q ∈ px k, q < n
  disjoint : ∀ j k, j ≠ k → ∀ q ∈ px j, q ∉ px k

/-- All switches are created with their LEDs. -/
def CreatedWith (px : Nat → List Nat) (os : List Op) : Prop := ∀ k ps as, Op.create k ps as ∈ os → ps = px k

/-- The operations of a history which address switch `k`. -/
def only (k : Nat) (os : List Op) : List Op := os.filter (fun o => o.target = k)

/-- The exceptions of the operations which address switch `k`. -/
def errors (k : Nat) (es : List (Nat × LedErr)) : List (Nat × LedErr) := es.filter (fun e => e.1 = k)

/-- A color with a brightness. -/
def shown (c : Color) (b : Rat) : Color := ⟨(c.r * b : Rat).floor, (c.g * b : Rat).floor, (c.b * b : Rat).floor⟩

/-- Two of the inputs use the same jack (a pedal and a switch at the same expression input). -/
def SameJack (i j : Input) : Prop := i ≠ j ∧ ∃ p, p ∈ i.pins ∧ p ∈ j.pins

/-- The switches with LEDs of a device in the order in which they lie on a circle: the upper row from the left to the right,
then the lower row back. -/
def Circle (d : List Input) (names : List String) : Prop :=
  (d = midicaptain10 ∧ names = ["1", "2", "3", "4", "Up", "Down", "D", "C", "B", "A"]) ∨
  (d = midicaptainMini6 ∧ names = ["1", "2", "3", "C", "B", "A"]) ∨
  (d = midicaptainNano4 ∧ names = ["1", "2", "B", "A"])

end PySwitch.Devices.Spec
