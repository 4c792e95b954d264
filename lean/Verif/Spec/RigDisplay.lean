import Verif.Model.RigDisplay
import Verif.Spec.Rigs
/-
What the displays of rig and bank switches have to show: where a press leads.
-/
namespace PySwitch.Spec
open PySwitch PySwitch.Rigs PySwitch.RigDisplay

/-- The names of a rig and of its bank, as written on labels. -/
def rigLabel (id : Int) : String := "Rig " ++ toString (bankOf id + 1) ++ "-" ++ toString (slotOf id + 1)
def bankLabel (bank : Int) : String := "Bank " ++ toString (bank + 1)

/-- This message makes the device load a rig (which it reports afterwards). -/
def loads (m : CC) : Bool := decide (50 ≤ m.number ∧ m.number ≤ 54 ∧ m.value = 1)

/-- The actions together with the device: all messages go to the device, and when it has loaded a rig, it reports this. (Values
which the device has not sent do not occur.) -/
def loopStep (as : List Act) (s : Sys × Device) : Event → Sys × Device
  | .value _ => s
  | e =>
    let r := step as s.1 e
    let d := s.2.receiveAll r.2
    if r.2.any loads then ((step as r.1 (.value d.current)).1, d) else (r.1, d)

/-- A history, starting with the device reporting its rig. -/
def loopRun (as : List Act) (s : Sys) (id : Int) (es : List Event) : Sys × Device :=
  es.foldl (loopStep as) ((step as s (.value id)).1, { current := id })

/-- No texts or colors of its own are configured for the action. -/
def Plain (k : Look) : Prop := k.text = "" ∧ k.textCallback = none ∧ k.color = none ∧ k.colorCallback = none

/-- A bank exists on the device, and a slot, counting from 1. -/
def isBank (b : Int) : Prop := 1 ≤ b ∧ b ≤ 125
def isSlot (r : Int) : Prop := 1 ≤ r ∧ r ≤ 5

/-- Only rigs and banks which exist are configured. -/
def Configured : Act → Prop
  | .rigSelect c _ => (∀ r, c.rig = some r → isSlot r) ∧ (∀ r, c.rigOff = some r → isSlot r) ∧
      (∀ b, c.bank = some b → isBank b) ∧ (∀ b, c.bankOff = some b → isBank b)
  | .bankSelect c _ => isBank c.bank ∧ ∀ b, c.bankOff = some b → isBank b
  | _ => True

/-- The actions considered: no bank up/down, and rig up/down only if no bank can be preselected. -/
def Supported (as : List Act) : Prop :=
  (∀ a ∈ as, ∀ c k, a ≠ .bankChange c k) ∧ ∀ a ∈ as, ∀ c k, a = .rigChange c k → ∀ b ∈ as, b.preselect = false

/-- The display mode showing the target rig is used, and texts and colors are the default ones. -/
def ShowsTarget : Act → Prop
  | .rigSelect _ k | .bankSelect _ k | .bankChange _ k | .rigChange _ k => k.target = true ∧ Plain k

/-- A rig select switch with an off bank also has an off rig. -/
def OffComplete : Act → Prop
  | .rigSelect c _ => c.bank.isSome → (c.bankOffAuto = true ∨ c.bankOff.isSome) → (c.rigOffAuto = true ∨ c.rigOff.isSome)
  | _ => True

/-- The bank the next rig would be loaded from. -/
def Device.bank (d : Device) : Int := d.preselected.getD (bankOf d.current)

/-- The text which names the state of the device: for bank switches the bank, for others the rig. -/
def nameFor (a : Act) (d : Device) : String :=
  match a with
  | .bankSelect .. | .bankChange .. => bankLabel (Device.bank d)
  | _ => rigLabel d.current

/-- A switch belongs to the current rig. -/
def belongsTo (a : Act) (id : Int) : Prop :=
  match a with
  | .rigSelect c _ => c.rig = some (slotOf id + 1) ∧ (c.bank = none ∨ c.bank = some (bankOf id + 1))
  | .bankSelect c _ => c.bank = bankOf id + 1
  | _ => True

end PySwitch.Spec
