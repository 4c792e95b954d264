import Verif.Model.Num
import Verif.Model.Layout
import Verif.Model.Switch
/-
The tuner: `ui/elements.py` (`TunerDisplay`), `controller/strobe.py`, and `TunerDisplayCallback` of
`clients/kemper/__init__.py`.
-/
namespace PySwitch.Tuner
open PySwitch PySwitch.Layout

/-! ### Tuner display -/

/-- The options of a tuner display with note and deviance, `elements.py:316-331`. `bounds` is the area of the deviance bar
(354-359). Note names are twelve. -/
structure DisplayConfig where
  bounds : Bounds
  width : Int := 5
  zoom : Rat := 24 / 10
  low : Int := 8192 - 350
  high : Int := 8192 + 350
  inTune : Color := ⟨100, 255, 100⟩
  outOfTune : Color := ⟨255, 125, 0⟩
  neutral : Color := ⟨255, 255, 255⟩
  names : List String := ["C", "Db", "D", "Eb", "E", "F", "Gb", "G", "Ab", "A", "Bb", "B"]

/-- `elements.py:290-293`: the deviance scaled by the zoom factor. -/
def DisplayConfig.scaled (c : DisplayConfig) (value : Int) : Int :=
  if c.zoom ≠ 1 then max (-8192) (min (pyInt (((value - 8192 : Int) : Rat) * c.zoom)) 8192) + 8191 else value

/-- `elements.py:295`: the position of the marker. -/
def DisplayConfig.markerX (c : DisplayConfig) (value : Int) : Int :=
  pyInt ((c.bounds.x : Rat) + ((c.bounds.width - c.width : Int) : Rat) * (c.scaled value : Rat) / 16384)

/-- `elements.py:268-284`: the position of the fixed marker for "in tune" (and of the other one before the first value). -/
def DisplayConfig.centerX (c : DisplayConfig) : Int :=
  pyInt ((c.bounds.x : Rat) + ((c.bounds.width - c.width : Int) : Rat) * (1 / 2))

/-- The state of the display: what is stored (370-371), and what is drawn. `noteColor` is `none` before it has been set
by the display. (`elements.py:260-287, 370-371`.) -/
structure DisplayState where
  lastNote : Option Int := none
  lastDeviance : Int := 8192
  noteText : String := ""
  noteColor : Option Color := none
  markerX : Int
  markerColor : Color
  isInTune : Bool := false
deriving Repr, DecidableEq

/-- The initial state, `elements.py:260-287, 370-371`. -/
def DisplayConfig.initial (c : DisplayConfig) : DisplayState := { markerX := c.centerX, markerColor := c.inTune }

/-- Values arriving (`parameter_changed`, 396-416) and resets (387-393). (`elements.py:387-416`.) -/
inductive DisplayEvent where
  | note (v : Int)
  | deviance (v : Int)
  | reset
deriving Repr, DecidableEq

/-- `elements.py:290-302` `set` of the deviance bar, and 304-310. -/
def DisplayConfig.setDeviance (c : DisplayConfig) (st : DisplayState) (v : Int) : DisplayState :=
  let ok := decide (v ≥ c.low) && decide (v ≤ c.high)
  { st with markerX := c.markerX v, isInTune := ok, markerColor := if ok then c.inTune else c.outOfTune }

/-- One event: `elements.py:387-416`. -/
def DisplayConfig.step (c : DisplayConfig) (st : DisplayState) : DisplayEvent → DisplayState
  | .note v =>
    if some v ≠ st.lastNote then { st with lastNote := some v, noteText := (c.names[(v % 12).toNat]?).getD "" } else st
  | .deviance v =>
    if v ≠ st.lastDeviance then
      let st := c.setDeviance { st with lastDeviance := v } v
      { st with noteColor := some (if st.isInTune then c.inTune else c.outOfTune) }
    else st
  | .reset => { st with lastNote := none, lastDeviance := 8192, noteText := "-", noteColor := some c.neutral }

/-- A history. (No code of its own: a history of `DisplayConfig.step`.) -/
def DisplayConfig.run (c : DisplayConfig) (es : List DisplayEvent) : DisplayState := es.foldl c.step c.initial

/-! ### Strobe -/

/-- `strobe.py:6-34` and `init` (36-57): `speed` is the attribute after multiplication by 2000 (whole numbers only),
`interval` the period between two frames, `count` the number of switches. -/
structure StrobeConfig where
  speed : Int := 2000000
  width : Rat := 3 / 10
  dim : Rat := 1 / 10
  reverse : Bool := false
  count : Nat
  interval : Int
deriving Repr

/-- `strobe.py:46`: the period for a frame rate. -/
def frameInterval (maxFps : Rat) (count : Nat) : Int := pyInt (1000 / maxFps * count)

/-- `strobe.py:111-114`: the two loops, with a bound on the number of turns: `none` if they have not ended by then. -/
def loops (speed : Int) : Nat → Int → Option Int
  | 0, _ => none
  | n + 1, pos =>
    if pos > speed then loops speed n (pos - speed)
    else if pos < -speed then loops speed n (pos + speed)
    else some pos

/-- `strobe.py:111-114`: the result of the loops, for a positive speed (for other speeds they may not end, see
`C57_endless`; then this is the last position). -/
def normalize (speed pos : Int) : Int := (loops speed (pos.natAbs + 1) pos).getD pos

/-- `strobe.py:121-127`: the light around position 0 (or 1). -/
def glow (p width : Rat) : Rat :=
  if p ≤ width then 1 - p * (1 / width)
  else if p ≥ 1 - width then (p - 1 + width) * (1 / width)
  else 0

/-- `strobe.py:117`: the position in [0..1). -/
def StrobeConfig.phase (c : StrobeConfig) (pos : Int) : Rat := ((pos % c.speed : Int) : Rat) / (c.speed : Rat)

/-- `strobe.py:134-139`: the position for one of the switches. Each of the loops makes at most one turn (`C57_phase`). -/
def StrobeConfig.place (c : StrobeConfig) (pos : Int) (k : Nat) : Rat :=
  let p := c.phase pos + (k : Rat) / (c.count : Rat)
  if p > 1 then p - 1 else if p < 0 then p + 1 else p

/-- `strobe.py:142-147`: the brightness for one of the switches. -/
def StrobeConfig.brightness (c : StrobeConfig) (pos : Int) (k : Nat) : Rat :=
  let b := (pyInt (glow (c.place pos k) c.width * 16) : Rat) / 16
  b * b * c.dim

/-- `strobe.py:28-34, 43`: `cache` is `__current_strobe_brightnesses`. `leds` is what the switches have been set to last
(by the strobe or anybody else). -/
structure StrobeState where
  enabled : Bool := false
  period : PeriodCounter
  pos : Int := 0
  lastDeviance : Int := 8192
  cache : Nat → Rat := fun _ => 0
  leds : Nat → Rat := fun _ => 0

/-- The tuner is switched on or off, a deviance arrives, or somebody else sets the LEDs. (`strobe.py:62-86`.) -/
inductive StrobeEvent where
  | tuner (on : Bool) (now : Int)
  | deviance (v : Int) (now : Int)
  | others (leds : Nat → Rat)

/-- `strobe.py:100-107`: the speed of the movement. -/
def StrobeConfig.delta (c : StrobeConfig) (deviance : Int) : Int :=
  let d := if c.reverse then 8191 - deviance else deviance - 8191
  let t := 100 * c.interval
  let d := if d > t then t else d
  if d < -t then -t else d

/-- `strobe.py:129-152`: the frame: the brightnesses which differ from the stored ones are written. -/
def StrobeConfig.draw (c : StrobeConfig) (st : StrobeState) : StrobeState :=
  { st with
    cache := fun k => if k < c.count ∧ st.cache k ≠ c.brightness st.pos k then c.brightness st.pos k else st.cache k
    leds := fun k => if k < c.count ∧ st.cache k ≠ c.brightness st.pos k then c.brightness st.pos k else st.leds k }

/-- `strobe.py:89-152` `__update_strobe`. -/
def StrobeConfig.update (c : StrobeConfig) (st : StrobeState) (now : Int) : StrobeState :=
  if !st.enabled then st
  else
    let passed := st.period.passed now
    let e := st.period.exceeded now
    if !e.1 then { st with period := e.2 }
    else
      let pos := normalize c.speed (st.pos - c.delta st.lastDeviance * passed)
      c.draw { st with period := e.2, pos := pos }

/-- `strobe.py:62-82` `parameter_changed`, for events of the client. -/
def StrobeConfig.step (c : StrobeConfig) (st : StrobeState) : StrobeEvent → StrobeState
  | .tuner on now =>
    if c.count ≤ 1 then { st with enabled := false }
    else if on then { st with enabled := true, period := st.period.reset now }
    else { st with enabled := false }
  | .deviance v now =>
    if c.count ≤ 1 then { st with enabled := false }
    else c.update { st with lastDeviance := v } now
  | .others leds => { st with leds := leds }

/-- A history. (No code of its own: a history of `StrobeConfig.step`.) -/
def StrobeConfig.run (c : StrobeConfig) (st : StrobeState) (es : List StrobeEvent) : StrobeState := es.foldl c.step st

/-- The state after `init`. (`strobe.py:28-57`.) -/
def StrobeConfig.initial (c : StrobeConfig) : StrobeState := { period := ⟨c.interval, 0⟩ }

/-! ### Overriding the switches -/

/-- `kemper/__init__.py:166-174`: is the tuner on (`mapping.value == 1`), `__pushed_before`, and the states of all switches. -/
structure OverrideState where
  on : Bool := false
  pushedBefore : Bool := false
  switches : List Switch.State

/-- What happens: the tuner state changes, or a switch is processed. In `sample`, the override is not used: it is set by
this callback. (`clients/kemper/__init__.py:208-251`.) -/
inductive OverrideEvent where
  | tuner (value : Int)
  | process (k : Nat) (sample : Switch.Sample)

/-- Effects: an action of a switch is called, the tuner is switched off (`client.set(mapping, 0)`, 249), or the action is
reset (236-237). (`clients/kemper/__init__.py:208-251`.) -/
inductive OverrideEff where
  | own (k : Nat) (e : Switch.Eff)
  | leave
  | resetActions (k : Nat)
deriving Repr, DecidableEq

/-- The override seen by a switch: set on all switches while the tuner is on (223-234), with what `push` (239-241) and
`release` (243-251) will return. (`clients/kemper/__init__.py:223-234`.) -/
def OverrideState.override (process : Bool) (st : OverrideState) : Option (Bool × Bool) :=
  if st.on then some (process, st.pushedBefore && process) else none

/-- The effects of calls of the override action (239-251): `push` remembers, `release` switches off the tuner if `push` has
been called before. Other calls are those of the switch's own actions. (`clients/kemper/__init__.py:239-251`.) -/
def applyOverride (k : Nat) (pb : Bool) : List Switch.Eff → Bool × List OverrideEff
  | [] => (pb, [])
  | .overridePush :: es => applyOverride k true es
  | .overrideRelease :: es =>
    let r := applyOverride k false es
    (r.1, if pb then .leave :: r.2 else r.2)
  | e :: es =>
    let r := applyOverride k pb es
    (r.1, .own k e :: r.2)

/-- One event. `cs` are the configurations of the switches, `process` is `process_overridden_actions`.
(`clients/kemper/__init__.py:208-251`.) -/
def overrideStep (cs : List Switch.Config) (process : Bool) (st : OverrideState) :
    OverrideEvent → OverrideState × List OverrideEff
  | .tuner v =>
    if v = 1 then ({ st with on := true }, [])
    else ({ st with on := false }, (List.range cs.length).map .resetActions)
  | .process k s =>
    match cs[k]?, st.switches[k]? with
    | some c, some sw =>
      let r := Switch.process c sw { s with override := st.override process }
      let a := applyOverride k st.pushedBefore r.2
      ({ st with pushedBefore := a.1, switches := st.switches.set k r.1 }, a.2)
    | _, _ => (st, [])

/-- A history: the effects of each event, and the final state. (No code of its own: a history of `overrideStep`.) -/
def overrideRun (cs : List Switch.Config) (process : Bool) : OverrideState → List OverrideEvent →
    List (List OverrideEff) × OverrideState
  | st, [] => ([], st)
  | st, e :: es =>
    let r := overrideStep cs process st e
    let rest := overrideRun cs process r.1 es
    (r.2 :: rest.1, rest.2)

end PySwitch.Tuner
