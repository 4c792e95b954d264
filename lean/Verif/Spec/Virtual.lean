import Verif.Model.Virtual
import Verif.Spec.KemperProtocol

/-!
Schedules in which both sides work regularly and messages arrive in time.
-/

namespace PySwitch.Kemper.Closed.Spec
open PySwitch.Wire PySwitch.Kemper.Closed

/-- The message renews the lease of the device. -/
def Beacon (bytes : List Nat) : Prop := bytes.take 9 = [240, 0, 32, 51, 2, 127, 126, 0, 64]

/-- PySwitch takes the message as a sign of life. -/
def Sensing (bytes : List Nat) : Prop :=
  ∃ m, (fromMessageBytes [0] bytes).1 = some m ∧ Protocol.Spec.IsSensing m

/-- There are no interruptions, and other messages do not belong to the protocol. -/
def Regular : Ev → Prop
  | .pySend bytes => ¬Beacon bytes
  | .devSend bytes => ¬Sensing bytes
  | .unplug | .devRestart | .pyRestart => False
  | _ => True

/-- Any history with interruptions: time does not go back, and only the protocol sends beacons. -/
def Any : Int → List (Int × Ev) → Prop
  | _, [] => True
  | now, (t, e) :: es => now ≤ t ∧ (∀ bytes, e = .pySend bytes → ¬Beacon bytes) ∧ Any t es

/-- Time does not go back, there are no interruptions, both sides do an update at least every `gap` milliseconds, and no message is
longer than `delay` milliseconds under way. -/
def Timely (params : Nat → List (List Nat)) (gap delay : Int) : Sys → List (Int × Ev) → Prop
  | _, [] => True
  | s, (t, e) :: es =>
    s.now ≤ t ∧ t ≤ s.lastPy + gap ∧ t ≤ s.lastDev + gap ∧
    (∀ m ∈ s.toDev, t ≤ m.1 + delay) ∧ (∀ m ∈ s.toPy, t ≤ m.1 + delay) ∧ Regular e ∧
    Timely params gap delay (step params s t e).1 es

/-- The times fit together: the update gaps and the delays are small against the 1.5 seconds after which
PySwitch misses the keep-alive messages (sent every 0.5 seconds) and the lease which is granted by the
device (in steps of two seconds, the beacon is repeated after the half of it). The number of steps fits
into a data byte. -/
def Suitable (lease : Nat) (gap delay : Int) : Prop :=
  0 ≤ gap ∧ 0 ≤ delay ∧ 500 + gap + delay ≤ 1500 ∧
  500 + 2 * gap + 2 * delay + 500 * (lease : Int) ≤ 2000 * ((lease / 2 : Nat) : Int) ∧ lease < 256

end PySwitch.Kemper.Closed.Spec
