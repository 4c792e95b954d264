import Verif.Model.Binary
/-
Model of the effect slot display: `EffectEnableCallback`
(`content/lib/pyswitch/controller/callbacks/effect_enable.py`) and `KemperEffectEnableCallback`
(`content/lib/pyswitch/clients/kemper/actions/effect_state.py`, below "effect_state").
-/
namespace PySwitch.Effects

/-- An RGB color. (`content/lib/pyswitch/colors.py`.) -/
abbrev Color := Nat × Nat × Nat

/-- The categories, as numbers: `effect_enable.py:9` (NONE) and `kemper/actions/effect_state.py:44-61`. -/
def CATEGORY_NONE : Nat := 0

/-- `kemper/actions/effect_state.py:65-85` `CATEGORY_COLORS`, with the colors of `colors.py:4-26`. -/
def categoryColors : List Color :=
  [(50, 50, 50), (255, 125, 0), (255, 0, 0), (0, 255, 255), (0, 255, 255), (0, 255, 0), (0, 0, 255), (180, 0, 120),
   (255, 255, 0), (255, 0, 0), (255, 125, 70), (255, 255, 255), (100, 255, 100), (0, 255, 0), (0, 255, 0), (0, 0, 255),
   (0, 0, 255), (0, 0, 255), (0, 0, 255)]

/-- `effect_state.py:88-108` `CATEGORY_NAMES`. -/
def categoryNames : List String :=
  ["-", "Wah", "Dist", "Comp", "Gate", "Space", "Chorus", "Phaser", "EQ", "Boost", "Looper", "Pitch", "Dual", "Delay",
   "Reverb", "Tremolo", "Rotary", "Vibrato", "Slicer"]

/-- `effect_state.py:137-248` `get_effect_category`. -/
def getCategory (t : Int) : Nat :=
  if t = 0 then 0
  else if (1 ≤ t ∧ t ≤ 10) ∨ t = 12 ∨ t = 13 then 1
  else if t = 11 then 11
  else if 17 ≤ t ∧ t ≤ 42 then 2
  else if 49 ≤ t ∧ t ≤ 50 then 3
  else if 57 ≤ t ∧ t ≤ 58 then 4
  else if t = 64 then 5
  else if t = 65 ∨ t = 66 ∨ t = 67 ∨ t = 71 then 6
  else if t = 68 then 17
  else if t = 69 then 16
  else if t = 70 ∨ t = 75 ∨ t = 76 then 15
  else if 77 ≤ t ∧ t ≤ 80 then 18
  else if 81 ≤ t ∧ t ≤ 91 then 7
  else if 97 ≤ t ∧ t ≤ 104 then 8
  else if 113 ≤ t ∧ t ≤ 116 then 9
  else if 121 ≤ t ∧ t ≤ 123 then 10
  else if 129 ≤ t ∧ t ≤ 132 then 11
  else if 138 ≤ t ∧ t ≤ 140 then 12
  else if 145 ≤ t ∧ t ≤ 166 then 13
  else if 177 ≤ t ∧ t ≤ 193 then 14
  else 0

/-- `effect_state_extended_names.py:33-142` `_EFFECT_TYPE_NAMES` (the keys are distinct). -/
def extendedNames : List (Int × String) :=
  [(0, "Empty"), (1, "Wah"), (2, "LP"), (3, "HP"), (4, "Vowel"), (6, "Wah Ph"),
   (7, "Wah Fl"), (8, "Wah RR"), (9, "Ring"), (10, "FShift"), (11, "Pitch"), (12, "Wah Form"),
   (13, "VinylStp"), (17, "Bit Shp"), (18, "Octa Shp"), (19, "Soft Shp"), (20, "Hard Shp"), (21, "Wave Shp"),
   (32, "KDrive"), (33, "Green"), (34, "Plus DS"), (35, "One DS"), (36, "Muff"), (37, "Mouse"),
   (38, "KFuzz"), (39, "Metal DS"), (42, "Full OC"), (49, "Comp"), (50, "Swell"), (57, "Gate 2:1"),
   (58, "Gate 4:1"), (64, "Space"), (65, "VChorus"), (66, "HChorus"), (67, "Air Ch."), (68, "Vibrato"),
   (69, "Rotary"), (70, "Tremolo"), (71, "MPitch"), (81, "Phaser"), (82, "Vibe"), (83, "Ph 1way"),
   (89, "Flanger"), (90, "Fl 1way"), (97, "Graphic"), (98, "StudioEQ"), (99, "MetalEQ"), (100, "Acoustic"),
   (101, "Wide"), (102, "WidePh"), (103, "WideDLY"), (104, "Double"), (113, "Treble"), (114, "Lead"),
   (115, "Boost"), (116, "WahBoost"), (121, "Loop"), (122, "Loop"), (123, "LoopDist"), (129, "Transp"),
   (130, "ChromPtch"), (131, "HarmPtch"), (132, "Octave"), (137, "DualChrom"), (138, "DualHarm"), (139, "DualCryst"),
   (140, "DualLoop"), (145, "LDelay"), (146, "SDelay"), (147, "DualDly"), (148, "2TpDelay"), (149, "S2TDelay"),
   (150, "Crystal"), (151, "LoopPitch"), (152, "FShiftDly"), (161, "RhDelay"), (162, "MeloChr"), (163, "MeloHarm"),
   (164, "QuadDly"), (165, "QuadChrm"), (166, "QuadHarm"), (177, "LReverb"), (178, "NatRev"), (179, "EasyRev"),
   (180, "Echo"), (181, "Cirrus"), (182, "FormRev"), (183, "Sphere"), (193, "Spring"), (75, "Tremolo"),
   (76, "HarmTrem"), (77, "Pulse"), (78, "Saw"), (79, "PulsePan"), (80, "SawPan")]

/-- The settings of the callback: `effect_state.py:110-124`. `text` and `color` are `None` or empty if not given,
`slotName` is only given with `show_slot_names`; `extended` tells if the names above are used. -/
structure Config where
  text : String := ""
  color : Option Color := none
  slotName : Option String := none
  extended : Bool := false
  /-- Does the action have a label? -/
  hasLabel : Bool := true
deriving Repr, DecidableEq

/-- `effect_state.py:252-256` `get_effect_category_color`; `none` is an `IndexError`. -/
def categoryColor (c : Config) (category : Nat) : Option Color :=
  match c.color with
  | some k => some k
  | none => categoryColors[category]?

/-- `effect_state.py:260-275` `get_effect_category_text`; `none` is an `IndexError`. -/
def categoryText (c : Config) (category : Nat) (type : Option Int) : Option String :=
  if c.text ≠ "" then some c.text
  else
    let name := if c.extended then
        match type.bind (fun t => extendedNames.lookup t) with
        | some n => some n
        | none => categoryNames[category]?
      else categoryNames[category]?
    match c.slotName with
    | some s => name.map (fun n => s ++ " " ++ n)
    | none => name

/-- `effect_enable.py:14-28`: the state of the callback and of its two mappings. `base` is the part of
`BinaryParameterCallback`, with the value of the on/off mapping. -/
structure State where
  base : Binary.State
  fxtype : Option Int := none
  category : Nat := 0
  currentType : Option Int := none
deriving Repr, DecidableEq

/-- What is done: setting the text of the label, or something `BinaryParameterCallback` does. (`effect_enable.py:30-64`.) -/
inductive Eff where
  | text (s : String)
  | base (e : Binary.Eff)
deriving Repr, DecidableEq

/-- A color as the number used in the model of `BinaryParameterCallback`.
(No code of its own: colors are numbers in `Model/Binary.lean`.) -/
def encode (k : Color) : Nat := (k.1 * 256 + k.2.1) * 256 + k.2.2

/-- The `BinaryParameterCallback` below an effect slot: `effect_enable.py:15-21`. The values are those of
`KemperMappings.EFFECT_STATE`: 1 for on, 0 for off, comparison GREATER_EQUAL (the defaults). -/
def baseConfig (c : Config) (category : Nat) : Binary.Config :=
  { compare := .greaterEqual, reference := 1, enable := .one 1, hasText := false, hasTextDisabled := false,
    hasLabel := c.hasLabel, color := fun _ _ => ((categoryColor c category).map encode).getD 0 }

/-- `effect_enable.py:14-28`: the constructor. -/
def initial : State := { base := Binary.initial (.one (.num 0)) }

/-- `effect_enable.py:36`: the category for the current type. -/
def categoryOf (type : Option Int) : Nat :=
  match type with
  | some t => getCategory t
  | none => CATEGORY_NONE

/-- `effect_enable.py:35-50` `update_displays`. -/
def updateDisplays (c : Config) (st : State) : State × List Eff :=
  let cat := categoryOf st.fxtype
  let base := if cat = CATEGORY_NONE then { st.base with state := false } else st.base
  let texts := if st.currentType = st.fxtype then []
    else if c.hasLabel then ((categoryText c cat st.fxtype).map Eff.text).toList else []
  let r := Binary.updateDisplays (baseConfig c cat) base
  ({ base := r.1, fxtype := st.fxtype, category := cat, currentType := st.fxtype }, texts ++ r.2.map .base)

/-- `effect_enable.py:30-33` `reset`. -/
def reset (st : State) : State := { st with base := Binary.reset st.base, currentType := none }

/-- What happens: a new on/off value or effect type (or the loss of it), the user switches, the action is reset or
enabled (with the values the mappings have at that time). See `Binary.Op`.
(`effect_enable.py:30-64`, `controller/actions/__init__.py:121-147`.) -/
inductive Op where
  | value (v : Option Int)
  | fxtype (t : Option Int)
  | toggle
  | reset
  | enable (v : Option Int) (t : Option Int)
deriving Repr, DecidableEq

/-- One event. For `toggle` see `Binary.toggle`; a value fed back at once is not modelled here.
(`effect_enable.py:30-64`, see `Op`.) -/
def step (c : Config) (st : State) : Op → State × List Eff
  | .value v => updateDisplays c { st with base := { st.base with value := v } }
  | .fxtype t => updateDisplays c { st with fxtype := t }
  | .toggle =>
    let base := { st.base with state := !st.base.state }
    let r := updateDisplays c { st with base }
    (r.1, (Binary.stateChanged (baseConfig c st.category) base).map .base ++ r.2)
  | .reset =>
    let st := Effects.reset st
    updateDisplays c { st with base := { st.base with state := false } }
  | .enable v t =>
    let st := Effects.reset st
    updateDisplays c { st with base := { st.base with value := v }, fxtype := t }

/-- A history of events: the effects of each one, and the final state. (No code of its own: a history of `step`.) -/
def run (c : Config) : State → List Op → List (List Eff) × State
  | st, [] => ([], st)
  | st, o :: os =>
    let r := step c st o
    let rest := run c r.1 os
    (r.2 :: rest.1, rest.2)

end PySwitch.Effects
