import Verif.Model.Leds
/-
The tables of the supported devices (`hardware/devices/*.py`), the pins they use, and the set-up of the switches with
their LEDs in the controller (`controller/controller.py:75-112`, `controller/inputs.py:27-68`).
-/
namespace PySwitch.Devices
open PySwitch.Leds

/-- The three classes of hardware models: `AdafruitSwitch`, `AdafruitPotentiometer`, `AdafruitEncoder`.
(`hardware/adafruit/AdafruitSwitch.py`, `AdafruitPotentiometer.py`, `AdafruitEncoder.py`.) -/
inductive Kind where
  | switch | pot | encoder
deriving Repr, DecidableEq

/-- One of the dictionaries in `hardware/devices/*.py`. `pins` are the numbers of the GPIO ports of the model, `pixels`
is empty and `strobe` 0 if not given (`inputs.py:28, 68`). -/
structure Input where
  name : String
  kind : Kind
  pins : List Nat
  pixels : List Nat := []
  strobe : Nat := 0
deriving Repr, DecidableEq

/-- `hardware/devices/pa_midicaptain_10.py:47-69`. -/
def midicaptain10 : List Input := [
  { name := "1", kind := .switch, pins := [1], pixels := [0, 1, 2], strobe := 0 },
  { name := "2", kind := .switch, pins := [25], pixels := [3, 4, 5], strobe := 1 },
  { name := "3", kind := .switch, pins := [24], pixels := [6, 7, 8], strobe := 2 },
  { name := "4", kind := .switch, pins := [23], pixels := [9, 10, 11], strobe := 3 },
  { name := "Up", kind := .switch, pins := [20], pixels := [12, 13, 14], strobe := 4 },
  { name := "A", kind := .switch, pins := [9], pixels := [15, 17, 16], strobe := 9 },
  { name := "B", kind := .switch, pins := [10], pixels := [18, 20, 19], strobe := 8 },
  { name := "C", kind := .switch, pins := [11], pixels := [21, 23, 22], strobe := 7 },
  { name := "D", kind := .switch, pins := [18], pixels := [24, 26, 25], strobe := 6 },
  { name := "Down", kind := .switch, pins := [19], pixels := [27, 29, 28], strobe := 5 },
  { name := "Exp1", kind := .pot, pins := [27] },
  { name := "Exp2", kind := .pot, pins := [28] },
  { name := "ExpSw1", kind := .switch, pins := [27] },
  { name := "ExpSw2", kind := .switch, pins := [28] },
  { name := "Wheel", kind := .encoder, pins := [2, 3] },
  { name := "WhlButton", kind := .switch, pins := [0] } ]

/-- `hardware/devices/pa_midicaptain_mini_6.py:32-37`. -/
def midicaptainMini6 : List Input := [
  { name := "1", kind := .switch, pins := [1], pixels := [0, 1, 2], strobe := 0 },
  { name := "2", kind := .switch, pins := [25], pixels := [3, 4, 5], strobe := 1 },
  { name := "3", kind := .switch, pins := [24], pixels := [6, 7, 8], strobe := 2 },
  { name := "A", kind := .switch, pins := [9], pixels := [9, 11, 10], strobe := 5 },
  { name := "B", kind := .switch, pins := [10], pixels := [12, 14, 13], strobe := 4 },
  { name := "C", kind := .switch, pins := [11], pixels := [15, 17, 16], strobe := 3 } ]

/-- `hardware/devices/pa_midicaptain_nano_4.py:30-33`. -/
def midicaptainNano4 : List Input := [
  { name := "1", kind := .switch, pins := [1], pixels := [0, 1, 2], strobe := 0 },
  { name := "2", kind := .switch, pins := [25], pixels := [3, 4, 5], strobe := 1 },
  { name := "A", kind := .switch, pins := [9], pixels := [6, 8, 7], strobe := 3 },
  { name := "B", kind := .switch, pins := [10], pixels := [9, 11, 10], strobe := 2 } ]

/-! ### Pins -/

/-- The pins of a new hardware object: CircuitPython raises an exception (`ValueError: … in use`) if one of them is
in use already. `none` stands for the exception. (Called by `controller.py:75-112`.) -/
def claim (used pins : List Nat) : Option (List Nat) :=
  if pins.all (fun p => !used.contains p) then some (used ++ pins) else none

/-- The pins of several hardware objects, in order. (Called by `controller.py:75-112`.) -/
def claimAll : List Nat → List (List Nat) → Option (List Nat)
  | used, [] => some used
  | used, pins :: rest =>
    match claim used pins with
    | none => none
    | some used' => claimAll used' rest

/-- Start-up: the display (`process.py:19-20`, `adafruit/__init__.py:23-26, 43-63`: clock 14, MOSI 15, then command 12 and
chip select 13), the MIDI ports if DIN is used (`communication.py`, `pa_midicaptain.py:20-21`: 16, 17), the LED strip
(`controller.py:89`, `adafruit/__init__.py:99, 107`: 7), then the inputs in the order of the configuration
(`controller.py:104-112`, `init` of the hardware models). -/
def start (din : Bool) (inputs : List Input) : Option (List Nat) :=
  claimAll [] ([[14, 15], [12, 13]] ++ (if din then [[16, 17]] else []) ++ [[7]] ++ inputs.map (·.pins))

/-! ### LEDs -/

/-- `controller.py:79-87` `get_num_pixels`. -/
def numPixels (inputs : List Input) : Nat :=
  inputs.foldl (fun ret i => i.pixels.foldl (fun ret p => if p + 1 > ret then p + 1 else ret) ret) 0

/-- `Colors.WHITE`, `colors.py`, and a LED which is off. -/
def white : Color := ⟨255, 255, 255⟩
/-- `content/lib/pyswitch/colors.py:23`. -/
def black : Color := ⟨0, 0, 0⟩

/-- `inputs.py:41-44`: a new switch: white with brightness 0.5. -/
def newSwitch (leds : Strip) (pixels actions : List Nat) : Strip × Switch × Option LedErr :=
  let sw : Switch := ⟨pixels, pixels.map (fun _ => black), pixels.map (fun _ => 0), actions⟩
  setBrightness leds (setColor sw white) (1 / 2)

/-- The LED strip and the switches created so far, with the numbers of their positions in the configuration.
(`controller.py:75-112`.) -/
structure Panel where
  leds : Strip
  switches : List (Nat × Switch) := []

/-- What can be done with the LEDs: a switch is created (the set-up of switch `k` of the configuration), or one of the
setters of a switch or of an action of that switch is used. The attributes `A` of the actions may change at any time.
(`controller/inputs.py:27-68, 165-236`.) -/
inductive Op where
  | create (k : Nat) (pixels actions : List Nat)
  | color (k : Nat) (c : Color)
  | colors (k : Nat) (cs : List Color)
  | brightness (k : Nat) (b : Rat)
  | brightnesses (k : Nat) (bs : List Rat)
  | actionColor (k : Nat) (A : Actions) (a : Nat) (c : ColorArg)
  | actionBrightness (k : Nat) (A : Actions) (a : Nat) (b : Rat)

/-- The switch which is addressed. (No code of its own: see `Op`.) -/
def Op.target : Op → Nat
  | .create k _ _ | .color k _ | .colors k _ | .brightness k _ | .brightnesses k _ | .actionColor k _ _ _
  | .actionBrightness k _ _ _ => k

/-- The switch number `k`. (No code of its own: see `Panel`.) -/
def Panel.get (p : Panel) (k : Nat) : Option Switch := p.switches.lookup k

/-- The switch `k` after a change. (No code of its own: see `Panel`.) -/
def Panel.set (p : Panel) (k : Nat) (sw : Switch) : Panel :=
  { p with switches := p.switches.map (fun x => if x.1 = k then (k, sw) else x) }

/-- One operation, with the exception it may end with. Operations with a switch which does not exist do not occur (they
do nothing here). (`controller/inputs.py:27-68, 165-236`.) -/
def step (p : Panel) (o : Op) : Panel × Option LedErr :=
  match o with
  | .create k pixels actions =>
    match p.get k with
    | some _ => (p, none)
    | none =>
      match newSwitch p.leds pixels actions with
      | (leds, sw, none) => ({ leds, switches := p.switches ++ [(k, sw)] }, none)
      | (leds, _, some e) => ({ p with leds }, some e)
  | .color k c =>
    match p.get k with
    | none => (p, none)
    | some sw => (p.set k (setColor sw c), none)
  | .colors k cs =>
    match p.get k with
    | none => (p, none)
    | some sw =>
      match setColors sw cs with
      | .ok sw' => (p.set k sw', none)
      | .error e => (p, some e)
  | .brightness k b =>
    match p.get k with
    | none => (p, none)
    | some sw =>
      let r := setBrightness p.leds sw b
      (({ p with leds := r.1 }).set k r.2.1, r.2.2)
  | .brightnesses k bs =>
    match p.get k with
    | none => (p, none)
    | some sw =>
      let r := setBrightnesses p.leds sw bs
      (({ p with leds := r.1 }).set k r.2.1, r.2.2)
  | .actionColor k A a c =>
    match p.get k with
    | none => (p, none)
    | some sw =>
      match setSwitchColor A sw a c with
      | .ok sw' => (p.set k sw', none)
      | .error e => (p, some e)
  | .actionBrightness k A a b =>
    match p.get k with
    | none => (p, none)
    | some sw =>
      let r := setSwitchBrightness A p.leds sw a b
      (({ p with leds := r.1 }).set k r.2.1, r.2.2)

/-- A history of operations. The exceptions are collected (somebody may have caught them), each with the number of the
switch. (No code of its own: a history of `step`.) -/
def run (p : Panel) : List Op → Panel × List (Nat × LedErr)
  | [] => (p, [])
  | o :: os =>
    let r := step p o
    let r' := run r.1 os
    (r'.1, r.2.toList.map (fun e => (o.target, e)) ++ r'.2)

/-- `controller.py:89`: the strip before the switches are created. All LEDs are off. -/
def strip (inputs : List Input) : Strip := List.replicate (numPixels inputs) black

/-- `controller.py:104-112`: the creation of all switches of the configuration, in order, beginning with number `k`. The other inputs (`ContinuousController`) do not use LEDs. -/
def creation (actions : Nat → List Nat) : Nat → List Input → List Op
  | _, [] => []
  | k, i :: is =>
    (if i.kind = .switch then [Op.create k i.pixels (actions k)] else []) ++ creation actions (k + 1) is

/-! ### The strobe order -/

/-- Insertion before the first one which is not smaller. (`strobe.py:41-52` (`sort`).) -/
def insertByStrobe (i : Input) : List Input → List Input
  | [] => [i]
  | j :: js => if i.strobe ≤ j.strobe then i :: j :: js else j :: insertByStrobe i js

/-- `strobe.py:41-52`: the switches of the configuration, sorted by the strobe order. Python's sort is stable: switches with
the same order stay as they are in the configuration. -/
def strobeOrder (inputs : List Input) : List Input :=
  (inputs.filter (fun i => i.kind = .switch)).foldr insertByStrobe []

end PySwitch.Devices
