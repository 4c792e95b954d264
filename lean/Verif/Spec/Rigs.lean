import Verif.Model.Rigs
/-
Specification vocabulary for selecting rigs: the device, as described by its MIDI documentation (see the comments in
`mappings/select.py:10-33`: control change 47 preselects a bank, 50 to 54 select a slot of it), and the rigs meant by the
actions.
-/
namespace PySwitch.Rigs

/-- The Kemper device: the current rig (`5 * bank + slot`, starting at 0) and a preselected bank. -/
structure Device where
  current : Int
  preselected : Option Int := none
deriving Repr, DecidableEq

/-- The device receives a control change message. Selecting a slot (value 1; 0 is for the release) loads this slot of
the preselected bank, or of the current bank. -/
def Device.receive (d : Device) (m : CC) : Device :=
  if m.number = 47 then { d with preselected := some m.value }
  else if 50 ≤ m.number ∧ m.number ≤ 54 ∧ m.value = 1 then
    { current := 5 * d.preselected.getD (d.current / 5) + (m.number - 50), preselected := none }
  else d

def Device.receiveAll (d : Device) (ms : List CC) : Device := ms.foldl Device.receive d

/-- A valid rig ID. -/
def Valid (id : Int) : Prop := 0 ≤ id ∧ id < 625

/-- The bank of a rig and its slot. -/
def bankOf (id : Int) : Int := id / 5
def slotOf (id : Int) : Int := id % 5
def mkRig (bank slot : Int) : Int := 5 * bank + slot

/-- The rig meant by rig up/down. -/
def rigAfter (up keepBank : Bool) (id : Int) : Int :=
  match up, keepBank with
  | true, false => (id + 1) % 625
  | false, false => (id + 624) % 625
  | true, true => if slotOf id = 4 then id else id + 1
  | false, true => if slotOf id = 0 then id else id - 1

/-- The slot after moving `n` slots up or down in the bank, at most to its end. -/
def slotAfter (up : Bool) (slot : Int) (n : Nat) : Int := if up then min 4 (slot + n) else max 0 (slot - n)

/-- Pressing a rig up/down button `n` times: each time it is pushed and released, and then the device reports its
current rig. -/
def pressRigChange (c : RigChange) : Nat → State × Shared × Device → State × Shared × Device
  | 0, s => s
  | n + 1, (st, sh, d) =>
    let (st, sh, ms) := c.push st sh
    let (st, ms') := release st
    let d := (d.receiveAll ms).receiveAll ms'
    pressRigChange c n ({ st with value := some d.current }, sh, d)

/-- Pressing a bank up/down button `n` times. -/
def pressBankChange (c : BankChange) : Nat → State × Shared × Device → State × Shared × Device
  | 0, s => s
  | n + 1, (st, sh, d) =>
    let (st, sh, ms) := c.push st sh
    pressBankChange c n (st, sh, d.receiveAll ms)

/-- A full cycle of a rig select button: push, release, the device reports the current rig and the displays are updated. -/
def pressRigSelect (c : RigSelect) (s : SelState × Shared × Device) : SelState × Shared × Device :=
  let (st, sh, d) := s
  let (st, sh, ms) := c.push st sh
  let (st, sh, ms') := c.release st sh
  let d := (d.receiveAll ms).receiveAll ms'
  (c.updateDisplays { st with value := some d.current }, sh, d)

end PySwitch.Rigs

namespace PySwitch.Rigs

/-- The rig meant by a rig select button, given the configured (1-based) rig and bank, the off rig and bank, and the
current rig. -/
def meantRig (rig bank rigOff bankOff : Option Int) (id : Int) : Int :=
  match rig with
  | none => mkRig ((bank.map (· - 1)).getD (bankOf id)) (slotOf id)
  | some r =>
    let on := mkRig ((bank.map (· - 1)).getD (bankOf id)) (r - 1)
    if id = on then
      mkRig (match bank with
        | none => bankOf id
        | some b => bankOff.getD b - 1) (rigOff.getD r - 1)
    else on

end PySwitch.Rigs
