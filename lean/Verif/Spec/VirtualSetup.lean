import Verif.Model.VirtualSetup
import Verif.Model.Table
import Verif.Spec.Shipped

/-!
Which rig is active at the device: rigs are numbered from 0, five in each of 125 banks.
-/

namespace PySwitch.Kemper.Setup.Spec
open PySwitch.Wire PySwitch.Mapping

/-- What counts for the selection of rigs: the active rig, a preselected bank, and the last value of the buttons of the five
rigs (1 is pressed). -/
structure Player where
  rig : Nat := 0
  preselected : Option Nat := none
  button : Nat → Nat := fun _ => 0

/-- The button `s` gets the value `v`. Only a change counts: pressing it selects the rig in the preselected (or else the current) bank. -/
def Player.press (p : Player) (s v : Nat) : Player :=
  if p.button s = v then p
  else
    { rig := if v = 1 then 5 * p.preselected.getD (p.rig / 5) + s else p.rig
      preselected := none
      button := fun i => if i = s then v else p.button i }

/-- A MIDI message. -/
def Player.message (p : Player) : List Nat → Player
  | [176, c, v] =>
    if c = 32 then { p with rig := 128 * v + p.rig % 128 }
    else if c = 47 then { p with preselected := some v }
    else if c = 48 then if v = 0 then { p with rig := (p.rig + 5) % 625 } else p
    else if c = 49 then if v = 0 then { p with rig := (p.rig + 620) % 625 } else p
    else if 50 ≤ c ∧ c ≤ 54 then p.press (c - 50) v
    else p
  | [192, v] => { p with rig := p.rig / 128 * 128 + v }
  | _ => p

/-- One event. -/
def Player.step (p : Player) : Ev → Player
  | .receive _ _ m => p.message m
  | .update _ => p
  | .tuner => p
  | .ui _ (.rig n) => { p with rig := n }
  | .ui _ (.value _ _ _) => p

/-- A complete MIDI message: control change or program change on the first channel, or SysEx. -/
def Midi (m : List Nat) : Prop :=
  (∃ c v, m = [176, c, v] ∧ c < 128 ∧ v < 128) ∨ (∃ v, m = [192, v] ∧ v < 128) ∨ m.head? = some 240

/-- The device gets complete messages only. -/
def Proper : Ev → Prop
  | .receive _ _ m => Midi m
  | _ => True

/-- The rig as PySwitch knows it after some bytes have arrived, from its mapping for the rig
(`Table.rigId`). -/
def heard : Mapping.Mapping → List (List Nat) → Except PyErr Mapping.Mapping
  | m, [] => .ok m
  | m, b :: bs =>
    match (fromMessageBytes [0] b).1 with
    | none => heard m bs
    | some msg =>
      match parse m msg with
      | .error e => .error e
      | .ok r => heard r.2 bs

/-- The message asks for all values of a parameter set (1 to 4). -/
def Asks (m : List Nat) : Prop :=
  ∃ set flags lease, m = [240, 0, 32, 51, 2, 127, 126, 0, 64, set, flags, lease, 247] ∧ 1 ≤ set ∧ set ≤ 4 ∧ flags % 2 = 1

/-- The device is connected, with one of the parameter sets 1 to 4. -/
def Connected (d : Device) : Prop := ∃ set, d.proto.parameterSet = some set ∧ 1 ≤ set ∧ set ≤ 4

/-- It is connected after each event. -/
def Stays : Device → List Ev → Prop
  | _, [] => True
  | d, e :: es => Connected (d.step e).1 ∧ Stays (d.step e).1 es

/-- The rig is only chosen with the buttons and at the device, not by the number of the rig. -/
def ByButton : Ev → Prop
  | .receive _ _ (176 :: 32 :: _) => False
  | .receive _ _ (192 :: _) => False
  | .ui _ (.rig n) => n < 625
  | _ => True

/-- What a use of one of the switches A, B, C, D and DOWN (5 to 9) of the shipped configuration shall do to the rig. -/
def afterUse (k rig : Nat) : Shipped.Spec.Use → Nat
  | .idle _ => rig
  | .press t0 down t1 =>
    if k = 5 && Shipped.Spec.long t0 down t1 then (rig + 620) % 625
    else if k = 9 && Shipped.Spec.long t0 down t1 then (rig + 5) % 625
    else rig / 5 * 5 + (k - 5)

/-- The messages the device gets. -/
def received : List Ev → List (List Nat)
  | [] => []
  | .receive _ _ m :: es => m :: received es
  | _ :: es => received es

/-- The user interface of the device is not used. -/
def NoUi : Ev → Prop
  | .ui _ _ => False
  | _ => True

/-- The name of the rig the device reports. -/
def reportedName (d : Device) : Option Virtual.PVal :=
  (d.params.find? fun p => p.send == some (.nrpn [0, 1])).map Virtual.Param.value

end PySwitch.Kemper.Setup.Spec
