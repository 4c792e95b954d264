import Verif.Model.VirtualParams
import Verif.Spec.Client
import Verif.Spec.Mapping

/-!
When do PySwitch and the device talk about the same parameter?
-/

namespace PySwitch.Kemper.Synced.Spec
open PySwitch.Wire PySwitch.Mapping PySwitch.Mapping.Spec PySwitch.Kemper.Virtual

/-- The template for the values of the NRPN parameter at the address `page`, `number`. -/
def template (page number : Nat) : Msg := .sysex [0, 32, 51] [0, 0, 1, 0, page, number]

/-- PySwitch takes the bytes as a value of the parameter. -/
def Answering (page number : Nat) (bytes : List Nat) : Prop :=
  ∃ m, (fromMessageBytes [0] bytes).1 = some m ∧ Answers m (template page number)

/-- The first parameter of the device which knows the message is the one at position `i`, and the
message sets it to the number `v`. -/
def Takes (params : List Param) (i : Nat) (bytes : List Nat) (v : Nat) : Prop :=
  (∀ j, j < i → ∀ q, params[j]? = some q → q.hit 2 bytes = none) ∧
  ∃ q, params[i]? = some q ∧ q.hit 2 bytes = some (.set (.num v))

/-- The message asks the device for all values of the parameter set 2. -/
def Init (bytes : List Nat) : Prop :=
  ∃ flags lease, bytes = [240, 0, 32, 51, 2, 127, 126, 0, 64, 2, flags, lease, 247] ∧ flags % 2 = 1

/-- The parameter of the device at position `i` is the one at the NRPN address `page`, `number`: it is
numeric, belongs to the parameter set 2 and is the only one which is sent with this address. -/
structure Known (page number : Nat) (params : List Param) (i : Nat) : Prop where
  page7 : page < 128
  number7 : number < 128
  param : ∃ q n, params[i]? = some q ∧ q.send = some (.nrpn [page, number]) ∧
    .nrpn [page, number] ∈ q.receive ∧ q.value = .num n ∧ 2 ∈ q.sets
  others : ∀ j q, j ≠ i → params[j]? = some q → ∀ data, q.send = some (.nrpn data) →
    data.length = 2 ∧ data ≠ [page, number]

/-- The value of the parameter at the device. -/
def deviceValue (s : Sys) (i : Nat) : Option PVal := (s.params[i]?).map Param.value

/-- The device is connected with the parameter set 2, and the parameter has a 14 bit value. -/
def Healthy (i : Nat) (s : Sys) : Prop :=
  s.dev.parameterSet = some 2 ∧ ∃ n, deviceValue s i = some (.num n) ∧ n < 16384

/-- Events which are allowed: PySwitch receives messages from the device only; if it sets the parameter
`mid`, it is to a number for which the device understands the message; and the device does not send
anything else which looks like a value of the parameter. -/
def Allowed (page number : Nat) (params : List Param) (i mid : Nat) (setter : Msg) : Ev → Prop
  | .py (.receive (some _)) => False
  | .py (.set mid' value) => mid' = mid →
      ∃ v, value = .one v ∧ v < 16384 ∧ Takes params i (toBytes 0 (Client.Spec.valued v setter)) v
  | .devSend bytes => ¬Answering page number bytes
  | _ => True

/-- All states of a history, including the last one. -/
def Along (P : Client.Protocol) (C : Sys → Prop) : Sys → List (Int × Ev) → Prop
  | s, [] => C s
  | s, (now, e) :: es =>
    C s ∧ match step P s now e with
      | .error _ => True
      | .ok s' => Along P C s' es

end PySwitch.Kemper.Synced.Spec
