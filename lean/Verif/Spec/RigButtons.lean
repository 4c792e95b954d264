import Verif.Model.RigButtons
import Verif.Spec.Rigs
import Verif.Spec.VirtualSetup

/-!
What a panel with rig and bank buttons is expected to do.
-/

namespace PySwitch.RigButtons.Spec
open PySwitch.Rigs PySwitch.RigButtons

/-- What counts: the active rig (5 * bank + slot, from 0), a bank which has been preselected (another one than the current one), all rigs
which have been active so far, the last one first, and whether a bank has been preselected since the last selection. -/
structure State where
  rig : Int
  pending : Option Int := none
  seen : List Int
  preselected : Bool := false

/-- The other rig (1 to 5) of a rig select button: the fixed one, or the last one in another slot which is not excluded (1 if there is none). -/
def otherRig (c : RigSelect) (seen : List Int) : Option Int :=
  if c.rigOffAuto then
    match c.rig with
    | none => some 1
    | some r => some (((seen.find? fun id => slotOf id ≠ r - 1 ∧ slotOf id + 1 ∉ c.exclude).map fun id => slotOf id + 1).getD 1)
  else c.rigOff

/-- The other bank (1 to 125) of a rig select button: the fixed one, or the last other one (1 if there is none). -/
def otherBank (c : RigSelect) (seen : List Int) : Option Int :=
  if c.bankOffAuto then
    match c.bank with
    | none => some 1
    | some b => some (((seen.find? fun id => bankOf id ≠ b - 1).map fun id => bankOf id + 1).getD 1)
  else c.bankOff

/-- A rig is active. -/
def State.goto (s : State) (rig : Int) : State := { rig, seen := rig :: s.seen }

/-- What it means to press a button. -/
def State.press (s : State) : Config → State
  | .rigChange c => s.goto (rigAfter c.up c.keepBank s.rig)
  | .bankChange c =>
    if c.preselect then { s with pending := some ((s.pending.getD (bankOf s.rig) + c.offset) % c.numBanks), preselected := true }
    else s.goto ((s.rig + if c.number = 48 then 5 else 620) % 625)
  | .bankSelect c =>
    if c.preselect then
      { s with pending := if s.pending = none ∧ bankOf s.rig = c.bank - 1 then none else some (c.bank - 1), preselected := true }
    else s.goto (mkRig (if bankOf s.rig = c.bank - 1 then c.bankOff.getD c.bank - 1 else c.bank - 1) (slotOf s.rig))
  | .rigSelect c =>
    match s.pending with
    | some b => s.goto (mkRig b ((c.rig.map (· - 1)).getD (slotOf s.rig)))
    | none => s.goto (meantRig c.rig c.bank (otherRig c s.seen) (otherBank c s.seen) s.rig)

/-- Several presses; `cs` are the configured buttons. -/
def State.presses (cs : List Config) (s : State) : List Ev → State
  | [] => s
  | .press i _ _ _ :: es =>
    match cs[i]? with
    | some c => (s.press c).presses cs es
    | none => s.presses cs es
  | .update _ :: es => s.presses cs es
  | .device rig _ :: es => State.presses cs { s with rig, seen := rig :: s.seen } es

def Slot (r : Int) : Prop := 1 ≤ r ∧ r ≤ 5
def Bank (b : Int) : Prop := 1 ≤ b ∧ b ≤ 125

/-- The values which the editor offers (`web/htdocs/definitions/meta.json`: slots 1 to 5 and banks 1 to 125). -/
def Valid : Config → Prop
  | .rigChange _ => True
  | .bankChange c => if c.preselect then 1 ≤ c.numBanks ∧ c.numBanks ≤ 125 else c.number = 48 ∨ c.number = 49
  | .bankSelect c => Bank c.bank ∧ ∀ o, c.bankOff = some o → Bank o
  | .rigSelect c => (∀ r, c.rig = some r → Slot r) ∧ (∀ r, c.rigOff = some r → Slot r) ∧ (∀ b, c.bank = some b → Bank b) ∧
      (∀ b, c.bankOff = some b → Bank b)

/-- The button only preselects a bank. -/
def Preselects : Config → Bool
  | .bankChange c => c.preselect
  | .bankSelect c => c.preselect
  | _ => false

/-- The button goes on from the current rig: rig up/down, and bank up/down without preselection. -/
def Relative : Config → Bool
  | .rigChange _ => true
  | .bankChange c => !c.preselect
  | _ => false

/-- After a preselection, the next selection is not made with a relative button or at the device. Only existing rigs are chosen at the
device. -/
def Allowed (cs : List Config) (s : State) : List Ev → Prop
  | [] => True
  | .press i _ _ _ :: es =>
    match cs[i]? with
    | some c => (s.preselected = true → Relative c = false) ∧ Allowed cs (s.press c) es
    | none => Allowed cs s es
  | .update _ :: es => Allowed cs s es
  | .device rig _ :: es => rig < 625 ∧ s.preselected = false ∧ Allowed cs { s with rig, seen := rig :: s.seen } es

/-- Only existing rigs are chosen at the device. -/
def Exists : Ev → Prop
  | .device rig _ => rig < 625
  | _ => True

/-- The slot which is selected by pressing the button (bank up/down select none, and rig up/down neither at the end of a bank which is kept). -/
def State.slotFor (s : State) : Config → Option Int
  | .bankChange _ => none
  | .rigChange c => if rigAfter c.up c.keepBank s.rig = s.rig then none else some (slotOf (rigAfter c.up c.keepBank s.rig))
  | c => some (slotOf (s.press c).rig)

/-- With held buttons: `held i` is `none` if the button is up, else the slot which it has selected. -/
structure Hold where
  st : State
  held : Nat → Option (Option Int) := fun _ => none

/-- Pushing has the meaning of pressing, releasing has none. -/
def Hold.step (cs : List Config) (h : Hold) : HoldEv → Hold
  | .push i _ _ =>
    match cs[i]? with
    | some c => { st := h.st.press c, held := fun j => if j = i then some (h.st.slotFor c) else h.held j }
    | none => h
  | .release i _ _ => { h with held := fun j => if j = i then none else h.held j }
  | .update _ => h
  | .device rig _ => { h with st := { h.st with rig, seen := rig :: h.st.seen } }

def Hold.run (cs : List Config) (h : Hold) (es : List HoldEv) : Hold := es.foldl (Hold.step cs) h

/-- A button is only pushed when it is up, and not while another one with the same slot is held. Only existing rigs are chosen at the device. -/
def HoldOk (cs : List Config) (h : Hold) : List HoldEv → Prop
  | [] => True
  | .push i t d :: es => (∀ c, cs[i]? = some c → h.held i = none ∧ ∀ j s, h.held j = some (some s) → h.st.slotFor c ≠ some s) ∧
      HoldOk cs (h.step cs (.push i t d)) es
  | .release i t d :: es => HoldOk cs (h.step cs (.release i t d)) es
  | .update t :: es => HoldOk cs (h.step cs (.update t)) es
  | .device rig d :: es => rig < 625 ∧ HoldOk cs (h.step cs (.device rig d)) es

/-- What the button knows about the active rig. -/
def known : Button → Option Int
  | .rigChange _ st => st.value
  | .bankChange _ st => st.value
  | .bankSelect _ st => st.value
  | .rigSelect _ st => st.value

/-- The device as it is when PySwitch is connected: after any history, in an existing rig, nothing is preselected and no button is held. -/
def Ready (before : List Kemper.Setup.Ev) : Prop :=
  let p := before.foldl Kemper.Setup.Spec.Player.step {}
  (∀ e ∈ before, Kemper.Setup.Spec.Proper e) ∧ p.rig < 625 ∧ p.preselected = none ∧ ∀ s, p.button s = 0

end PySwitch.RigButtons.Spec
