import Verif.Model.ActionNames
import Verif.Spec.RigButtons

/-!
What the names of rig and bank actions say, and what a call in python means.
-/

namespace PySwitch.ActionNames.Spec
open PySwitch.Properties (Text lit intText)
open PySwitch.Rigs PySwitch.ActionNames

/-- A call: positional arguments, and then the ones with keywords. -/
structure Call where
  pos : List Text
  kw : List (Text × Text)

/-- The arguments as they are written. -/
def Call.args (c : Call) : Args := c.pos.map (fun v => (none, v)) ++ c.kw.map fun a => (some a.1, a.2)

/-- A parameter has got a value: the argument at its position, or the one with its name. -/
def Call.Bound (names : List Text) (c : Call) (p t : Text) : Prop :=
  (∃ i : Nat, names[i]? = some p ∧ c.pos[i]? = some t) ∨ (p, t) ∈ c.kw

/-- Python accepts the call: not too many positional arguments, and no parameter gets two values. -/
def Call.Legal (names : List Text) (c : Call) : Prop :=
  c.pos.length ≤ names.length ∧ (names.take c.pos.length ++ c.kw.map (·.1)).Nodup

/-- The values which count here. -/
inductive PyVal where
  | none
  | int (n : Nat)
  | auto
deriving DecidableEq

/-- How they are written. -/
def PyVal.Code (t : Text) : PyVal → Prop
  | .none => t = lit "None"
  | .int n => t = intText n
  | .auto => t = lit "\"auto\"" ∨ t = lit "'auto'"

/-- The value of a parameter with default `None`. -/
def Call.Value (names : List Text) (c : Call) (p : Text) (v : PyVal) : Prop :=
  (∃ t, c.Bound names p t ∧ v.Code t) ∨ (∀ t, ¬ c.Bound names p t) ∧ v = .none

/-- The call creates a rig select action with these parameters. (All other ones have any values.) -/
def RigCall (names : List Text) (call : Call) (c : RigSelect) : Prop :=
  (∃ t, call.Bound names (lit "rig") t ∧
    match c.rig with
    | none => PyVal.Code t .none
    | some r => ∃ n : Nat, r = n ∧ PyVal.Code t (.int n)) ∧
  call.Value names (lit "rig_off")
    (if c.rigOffAuto then .auto else match c.rigOff with | none => .none | some r => .int r.toNat) ∧
  (c.rigOffAuto = false → ∀ r, c.rigOff = some r → 0 ≤ r)

/-- The call creates a bank select action with these parameters. -/
def BankCall (names : List Text) (call : Call) (c : BankSelect) : Prop :=
  (∃ n : Nat, c.bank = n ∧ call.Bound names (lit "bank") (intText n)) ∧
  call.Value names (lit "bank_off") (match c.bankOff with | none => .none | some r => .int r.toNat) ∧ (∀ r, c.bankOff = some r → 0 ≤ r) ∧
  (if c.preselect then call.Bound names (lit "preselect") (lit "True") else ∀ t, call.Bound names (lit "preselect") t → t = lit "False")

/-- What a name can say. -/
inductive Meaning where
  | selectRig (n : Nat)
  | toggleRigs (a b : Nat)
  | toggleAuto (a : Nat)
  | currentRig
  | selectBank (n : Nat)
  | preselectBank (n : Nat)
  | toggleBanks (a b : Nat)
deriving DecidableEq

/-- The names which say so. -/
def Meaning.names : Meaning → List Text
  | .selectRig n => [lit "Select Rig " ++ intText n, lit "Select Rig " ++ intText n ++ lit " & Morph Display"]
  | .toggleRigs a b => [lit "Toggle Rigs " ++ intText a ++ lit "/" ++ intText b,
      lit "Toggle Rigs " ++ intText a ++ lit "/" ++ intText b ++ lit " & Morph Display"]
  | .toggleAuto a => [lit "Toggle Rigs " ++ intText a ++ lit "/\"auto\"", lit "Toggle Rigs " ++ intText a ++ lit "/'auto'",
      lit "Toggle Rigs " ++ intText a ++ lit "/\"auto\" & Morph Display", lit "Toggle Rigs " ++ intText a ++ lit "/'auto' & Morph Display"]
  | .currentRig => [lit "Select Current Rig", lit "Select Rig None & Morph Display"]
  | .selectBank n => [lit "Select Bank " ++ intText n]
  | .preselectBank n => [lit "Preselect Bank " ++ intText n]
  | .toggleBanks a b => [lit "Toggle Banks " ++ intText a ++ lit "/" ++ intText b]

/-- The action leads to slot `a`, and if it is there already, to one of the other slots given. -/
def toggles (a : Int) (other : Int → Prop) (s s' : RigButtons.Spec.State) : Prop :=
  slotOf s'.rig = a - 1 ∧ (s'.rig ≠ s.rig ∨ s.pending ≠ none ∨ other a) ∨ slotOf s.rig = a - 1 ∧ s.pending = none ∧ other (slotOf s'.rig + 1)

/-- What it means, for the state before and after pressing. The automatic other rig is one which was active before, or rig 1. -/
def Meaning.Does (m : Meaning) (s s' : RigButtons.Spec.State) : Prop :=
  match m with
  | .selectRig n => slotOf s'.rig = n - 1
  | .toggleRigs a b => toggles a (· = b) s s'
  | .toggleAuto a => toggles a (fun x => x = 1 ∨ x ≠ a ∧ ∃ id ∈ s.seen, slotOf id + 1 = x) s s'
  | .currentRig => slotOf s'.rig = slotOf s.rig
  | .selectBank n => bankOf s'.rig = n - 1 ∧ slotOf s'.rig = slotOf s.rig
  | .preselectBank n => s'.rig = s.rig ∧ s'.pending.getD (bankOf s'.rig) = n - 1
  | .toggleBanks a b => bankOf s'.rig = (if bankOf s.rig = a - 1 then b else a) - 1 ∧ slotOf s'.rig = slotOf s.rig

end PySwitch.ActionNames.Spec
