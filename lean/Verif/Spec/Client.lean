import Verif.Model.Client
/-
What the client is expected to do.
-/
namespace PySwitch.Client.Spec
open PySwitch.Wire PySwitch.Mapping PySwitch.Client

/-- The notifications for a mapping among effects: listener and value, in order. -/
def changes (mid : Nat) (es : List Eff) : List (Nat × Option Val) :=
  es.filterMap (fun e => match e with | .changed l m v => if m = mid then some (l, v) else none | _ => none)

/-- The messages sent among effects, in order. -/
def sent (es : List Eff) : List Msg :=
  es.filterMap (fun e => match e with | .send m => some m | _ => none)

/-- The messages of a field, in order. -/
def messages : MsgField → List Msg
  | .none => []
  | .one m => [m]
  | .many ms => ms.filterMap id

/-- A message with a value put in: control value, program number, or the 14 bit number behind the six address
bytes of a SysEx. -/
def valued (v : Nat) : Msg → Msg
  | .cc c _ ch => .cc c v ch
  | .pc _ ch => .pc v ch
  | .sysex man d => .sysex man (d.take 6 ++ [v / 128, v % 128])
  | m => m

/-- Messages which can carry a value: CC, program change, and SysEx with six address bytes and at most two
value bytes. -/
def Settable : Msg → Prop
  | .cc .. => True
  | .pc .. => True
  | .sysex _ d => 6 ≤ d.length ∧ d.length ≤ 8 ∧ ∀ b ∈ d, b < 128
  | _ => False

/-- The entry of a mapping: is a request or registration pending, and who listens? -/
def entry (st : State) (mid : Nat) : Option Req := st.requests.find? (fun r => r.mapping == mid)

/-- All clock readings of a history, in order, do not go back and are not negative. -/
def Monotone (ops : List (Int × Op)) : Prop := ((0 : Int) :: ops.map Prod.fst).Pairwise (· ≤ ·)

/-- The last clock reading of a history. -/
def lastTime (ops : List (Int × Op)) : Int := (ops.getLast?.map Prod.fst).getD 0

end PySwitch.Client.Spec
