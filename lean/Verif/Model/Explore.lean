import Verif.Model.Num
/-
Model of explore mode (`content/lib/pyswitch/controller/explore.py`).
-/
namespace PySwitch.Explore

/-- A port of the board, `explore.py:307-319`: the name, and if a switch can be created for it (`create_switch` raises `ValueError`
otherwise, line 217; other exceptions end the program and are not modelled). -/
structure Port where
  name : String
  ok : Bool
deriving Repr, DecidableEq

/-- A switch, `explore.py:228-255`: the name of its port, `em_index`, the step of its action and its pixels. -/
structure Switch where
  name : String
  index : Nat
  step : Int
  pixels : List Nat
deriving Repr, DecidableEq

/-- The options, `explore.py:69-96`: is there an LED driver, and the number of pixels per switch and of columns. -/
structure Config where
  leds : Bool := true
  perSwitch : Nat := 3
  columns : Nat := 5
deriving Repr, DecidableEq

/-- `explore.py:298-304` `__calculate_pixels`. -/
def Config.pixels (c : Config) (index : Nat) : List Nat :=
  if !c.leds then [] else (List.range c.perSwitch).map (fun j => index * c.perSwitch + j)

/-- `explore.py:228-255` `__init_switch`. -/
def Config.initSwitch (c : Config) (name : String) (index : Nat) : Switch :=
  { name, index, step := if index % 2 = 0 then 1 else -1, pixels := c.pixels index }

/-- `explore.py:202-225` `__init_switches`: the loop over the ports, with the switches created so far. The names returned (`ret`) are
those of the switches. -/
def Config.initSwitches (c : Config) : List Switch → List Port → List Switch
  | done, [] => done
  | done, p :: ps => if p.ok then c.initSwitches (done ++ [c.initSwitch p.name done.length]) ps else c.initSwitches done ps

/-- `explore.py:96`: the number of pixels the LED driver is initialised with. -/
def Config.numPixels (c : Config) (ports : List Port) : Nat := ports.length * c.perSwitch

/-- What a switch shows: initially off (`explore.py:248-249`), the one currently shown, or another one (lines 183-193). -/
inductive Light where
  | initial | white | blue
deriving Repr, DecidableEq

/-- The state: `__currently_shown_switch_index`, what the switches show, and the marker of each label (by the index of the
switch): `DARK_BLUE`, `LIGHT_BLUE` or `RED`; `latest` is `latest_marker`. (`explore.py:69-109`.) -/
inductive Marker where
  | dark | light | red
deriving Repr, DecidableEq

/-- `explore.py:69-109`: see `Marker`. -/
structure State where
  shown : Int := -1
  lights : List Light
  markers : List Marker
  latest : Option Nat := none
deriving Repr, DecidableEq

/-- `explore.py:171-179`: the new index. -/
def nextIndex (n : Nat) (shown step : Int) : Int :=
  let i := shown + step
  let i := if i ≥ n then 0 else i
  if i < 0 then (n : Int) - 1 else i

/-- `explore.py:181-195`: the lights for an index. -/
def lights (switches : List Switch) (shown : Int) : List Light :=
  switches.map (fun s => if (s.index : Int) = shown then .white else .blue)

/-- `explore.py:181-195`: the pixels returned: those of the last switch with this index. -/
def returned (switches : List Switch) (shown : Int) : Option (List Nat) :=
  switches.foldl (fun ret s => if (s.index : Int) = shown then some s.pixels else ret) none

/-- `explore.py:287-295` `set_latest_port_marker` for the label with this number. -/
def mark (st : State) (k : Nat) : State :=
  let ms := match st.latest with
    | some j => st.markers.set j .light
    | none => st.markers
  if k < ms.length then { st with markers := ms.set k .red, latest := some k } else { st with markers := ms }

/-- `explore.py:30-51` `push` of the action of the switch with this number, for an explore mode with display. The second component
are the pixels reported. -/
def press (switches : List Switch) (st : State) (k : Nat) : State × Option (List Nat) :=
  match switches[k]? with
  | none => (st, none)
  | some s =>
    let i := nextIndex switches.length st.shown s.step
    (mark { st with shown := i, lights := lights switches i } k, returned switches i)

/-- A history of presses: the pixels reported, and the final state. (No code of its own: a history of `press`.) -/
def run (switches : List Switch) : State → List Nat → List (Option (List Nat)) × State
  | st, [] => ([], st)
  | st, k :: ks =>
    let r := press switches st k
    let rest := run switches r.1 ks
    (r.2 :: rest.1, rest.2)

/-- The state after the constructor (`explore.py:109`: `reset_port_markers`). -/
def initial (switches : List Switch) : State :=
  { lights := switches.map (fun _ => .initial), markers := switches.map (fun _ => .dark) }

/-- `explore.py:258-279` `get_next_port_label`: the rows of the display, with the next label (given by a number). -/
def addLabel (columns : Nat) (rows : List (List Nat)) (label : Nat) : List (List Nat) :=
  match rows.getLast? with
  | none => rows ++ [[label]]
  | some row => if row.length ≥ columns then rows ++ [[label]] else rows.dropLast ++ [row ++ [label]]

/-- The rows after all switches have been created. (No code of its own: repeated `addLabel`.) -/
def rows (columns : Nat) (n : Nat) : List (List Nat) := (List.range n).foldl (addLabel columns) []

end PySwitch.Explore
