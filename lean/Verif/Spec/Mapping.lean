import Verif.Model.Wire
import Verif.Model.Mapping
/-
What mappings are expected to do.
-/
namespace PySwitch.Mapping.Spec
open PySwitch.Wire PySwitch.Mapping

/-- The four address bytes of a SysEx parameter message: positions 2, 3, 4 and 5 of the data. -/
def address (data : List Nat) : List (Option Nat) := [data[2]?, data[3]?, data[4]?, data[5]?]

/-- Does a message answer a response template? -/
def Answers : Msg → Msg → Prop
  | .sysex m d, .sysex m' d' => m = m' ∧ address d = address d'
  | .cc c _ _, .cc c' _ _ => c = c'
  | .pc _ _, .pc _ _ => True
  | _, _ => False

/-- The value carried by an answer to a numeric parameter: the value of a CC, the program number, or the 14
bit number in the last two bytes of a SysEx. -/
def Carries : Msg → Nat → Prop
  | .sysex _ d, v => ∃ front hi lo, d = front ++ [hi, lo] ∧ v = 128 * hi + lo
  | .cc _ x _, v => v = x
  | .pc p _, v => v = p
  | _, _ => False

/-- The bank CC waiting for its program change after a history of messages (newest message first). -/
def pendingBank (cc : Nat) : List Msg → Option Nat
  | [] => none
  | .cc c v _ :: h => if c = cc then some v else pendingBank cc h
  | .pc _ _ :: _ => none
  | _ :: h => pendingBank cc h

/-- The rig ID after a history of messages (newest message first), starting with `v₀`. -/
def rigId (cc : Nat) (v₀ : Option Nat) : List Msg → Option Nat
  | [] => v₀
  | .pc p _ :: h =>
    match pendingBank cc h with
    | some b => some (128 * b + p)
    | none => rigId cc v₀ h
  | _ :: h => rigId cc v₀ h

end PySwitch.Mapping.Spec
