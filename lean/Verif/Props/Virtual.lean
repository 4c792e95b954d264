import Verif.Lemmas.VirtualRecover

/-!
C113: the connection of PySwitch and the device is established, and then kept.
-/

namespace PySwitch.Props
open PySwitch.Kemper.Closed PySwitch.Kemper.Closed.Spec

namespace C113

theorem fits {lease : Nat} {gap delay : Int} (h : Suitable lease gap delay) : Fits lease gap delay :=
  ⟨h.1, h.2.1, h.2.2.1, by simpa [granted] using h.2.2.2.1⟩

instance (lease : Nat) (gap delay : Int) : Decidable (Suitable lease gap delay) := by
  unfold Suitable; infer_instance

/-- The default time lease, gaps and delays of up to 300 ms. -/
example : Suitable 30 300 300 := by decide

/-- Values of the parameters for the tests: rig name and a numeric value. -/
def values : Nat → List (List Nat) := fun _ =>
  [[240, 0, 32, 51, 0, 0, 3, 0, 0, 1, 65, 0, 247], [240, 0, 32, 51, 0, 0, 1, 0, 51, 3, 1, 0, 247]]

instance (m : Wire.Msg) : Decidable (Kemper.Protocol.Spec.IsSensing m) := by
  unfold Kemper.Protocol.Spec.IsSensing; split <;> infer_instance

instance (b : List Nat) : Decidable (Sensing b) :=
  decidable_of_iff ((Wire.fromMessageBytes [0] b).1.any (fun m => Kemper.Protocol.Spec.IsSensing m) = true) <| by
    unfold Sensing
    cases (Wire.fromMessageBytes [0] b).1 <;> simp

instance (b : List Nat) : Decidable (Beacon b) := by unfold Beacon; infer_instance

instance (e : Ev) : Decidable (Regular e) := by cases e <;> (unfold Regular; infer_instance)

instance timelyDec (params) (gap delay : Int) : ∀ (es : List (Int × Ev)) (s : Sys),
    Decidable (Timely params gap delay s es)
  | [], _ => isTrue trivial
  | (t, e) :: es, s => by
    have := timelyDec params gap delay es (step params s t e).1
    unfold Timely
    infer_instance

theorem values_ok : ∀ set, ∀ b ∈ values set, ¬Sensing b := by
  intro set
  show ∀ b ∈ ([_, _] : List (List Nat)), _
  decide +kernel

/-- Both sides are updated every 200 ms, and take a message 50 ms later. -/
def rounds (n : Nat) : List (Int × Ev) := (List.range n).flatMap fun (i : Nat) =>
  let t : Int := 6001 + 200 * (i : Int)
  [(t, .pyUpdate), (t, .devUpdate), (t + 50, .devReceive), (t + 60, .pyReceive), (t + 61, .pyReceive),
    (t + 62, .pyReceive)]

end C113

/-- C113: the connection is established: if both sides are started at `t0`, then, whatever else is sent
in both directions, PySwitch is connected and has the device at most 0.5 seconds and two update gaps and
two message delays after the end of the first five seconds. -/
theorem C113_connects (params : Nat → List (List Nat)) (hp : ∀ set, ∀ b ∈ params set, ¬Sensing b)
    (lease : Nat) (tuner : Bool) (t0 gap delay : Int) (hs : Suitable lease gap delay)
    (es : List (Int × Ev)) (ht : Timely params gap delay (start lease tuner t0) es) :
    let s := (run params (start lease tuner t0) es).1
    max t0 5000 + 500 + 2 * gap + 2 * delay < s.now →
      s.py.running = true ∧ s.dev.connected = true := by
  intro s hn
  obtain ⟨h1, h2⟩ := Inv.run hp (C113.fits hs) es _ (Inv.start (C113.fits hs) tuner t0) ht
  obtain ⟨r, hd⟩ := h1.late hn
  exact ⟨hd.running, hd.connected⟩

/-- C113: once the connection is established it is never lost, on either side, and the loss of a
connection is never reported. -/
theorem C113_kept (params : Nat → List (List Nat)) (hp : ∀ set, ∀ b ∈ params set, ¬Sensing b)
    (lease : Nat) (tuner : Bool) (t0 gap delay : Int) (hs : Suitable lease gap delay)
    (es fs : List (Int × Ev)) (ht : Timely params gap delay (start lease tuner t0) (es ++ fs)) :
    ((run params (start lease tuner t0) es).1.py.running = true →
      (run params (start lease tuner t0) (es ++ fs)).1.py.running = true ∧
      (run params (start lease tuner t0) (es ++ fs)).1.dev.connected = true) ∧
    .connectionLost ∉ (run params (start lease tuner t0) (es ++ fs)).2 := by
  have hf := C113.fits hs
  refine ⟨fun hr => ?_, (Inv.run hp hf _ _ (Inv.start hf tuner t0) ht).2⟩
  rw [timely_append] at ht
  have hi := (Inv.run hp hf es _ (Inv.start hf tuner t0) ht.1).1
  obtain ⟨r, hd⟩ := PhaseD.run hp hf fs _ hi.base (hi.running hr) ht.2
  rw [run_append]
  exact ⟨hd.running, hd.connected⟩

/- A schedule which meets the conditions: nine seconds with the default lease. -/
example : Timely C113.values 200 200 (start 30 true 6000) (C113.rounds 45) ∧
    (run C113.values (start 30 true 6000) (C113.rounds 45)).1.now = 14863 ∧
    max (6000 : Int) 5000 + 500 + 2 * 200 + 2 * 200 < 14863 ∧ Suitable 30 200 200 := by
  refine ⟨?_, ?_, ?_, ?_⟩ <;> decide +kernel

/- It is connected in the middle of this history. -/
example : (run C113.values (start 30 true 6000) (C113.rounds 5)).1.py.running = true ∧
    (run C113.values (start 30 true 6000) (C113.rounds 2)).1.py.running = false := by
  decide +kernel

/-- C113: after any history, with interruptions of all kinds, as soon as the cables are connected again
(empty) and both sides work regularly, the connection is established again, at most after five seconds
or the end of an old lease (and its detection by PySwitch), and is kept then. -/
theorem C113_recovers (params : Nat → List (List Nat)) (hp : ∀ set, ∀ b ∈ params set, ¬Sensing b)
    (lease : Nat) (tuner : Bool) (t0 gap delay : Int) (h0 : 0 ≤ t0) (hs : Suitable lease gap delay)
    (hist es fs : List (Int × Ev)) (ha : Any t0 hist) :
    let s := (run params (start lease tuner t0) hist).1
    let s1 := (run params s es).1
    let s2 := (run params s (es ++ fs)).1
    s.toDev = [] → s.toPy = [] → Timely params gap delay s (es ++ fs) →
    s.now + max 5000 (2000 * ((lease / 2 : Nat) : Int) + 2 * gap + delay + 1500) + 500 + 2 * gap + 2 * delay < s1.now →
      s1.py.running = true ∧ s1.dev.connected = true ∧ s2.py.running = true ∧ s2.dev.connected = true := by
  intro s s1 s2 e1 e2 ht hn
  have hf := C113.fits hs
  have hsound : Sound lease s := Sound.run hist _ (Sound.start tuner h0) ha
  rw [timely_append] at ht
  have hr : Rec lease s.now gap delay s1 := Rec.run hp hf es s (Rec.start hf hsound e1 e2) ht.1
  obtain ⟨r, hd⟩ := hr.late hn
  obtain ⟨r', hd'⟩ := PhaseD.run hp hf fs s1 hr.sound.base ⟨r, hd⟩ ht.2
  have hs2 : s2 = (run params s1 fs).1 := run_append es fs s
  exact ⟨hd.running, hd.connected, hs2 ▸ hd'.running, hs2 ▸ hd'.connected⟩

/- The device is switched off and on while it is connected (lease 4 seconds), then nine seconds pass. -/
namespace C113
def broken : List (Int × Ev) := rounds 10 ++ [(7900, .devRestart), (7901, .unplug)]
def again : List (Int × Ev) := (List.range 48).flatMap fun (i : Nat) =>
  let t : Int := 7902 + 200 * (i : Int)
  [(t, .pyUpdate), (t, .devUpdate), (t + 50, .devReceive), (t + 60, .pyReceive), (t + 61, .pyReceive),
    (t + 62, .pyReceive)]

instance anyDec : ∀ (es : List (Int × Ev)) (t : Int), Decidable (Any t es)
  | [], _ => isTrue trivial
  | (t, e) :: es, now => by
    have := anyDec es t
    have : Decidable (∀ bytes, e = .pySend bytes → ¬Beacon bytes) := by
      cases e with
      | pySend b => exact decidable_of_iff (¬Beacon b) (by simp)
      | _ => exact isTrue (by simp)
    unfold Any
    infer_instance

example : Any 6000 broken ∧ (run values (start 4 true 6000) broken).1.py.running = true ∧
    (run values (start 4 true 6000) broken).1.dev.connected = false ∧
    (run values (start 4 true 6000) broken).1.toDev = [] ∧ (run values (start 4 true 6000) broken).1.toPy = [] ∧
    Timely values 200 200 (run values (start 4 true 6000) broken).1 again ∧ Suitable 4 200 200 ∧
    (7901 : Int) + max 5000 (2000 * ((4 / 2 : Nat) : Int) + 2 * 200 + 200 + 1500) + 500 + 2 * 200 + 2 * 200 <
      (run values (run values (start 4 true 6000) broken).1 again).1.now := by
  decide +kernel
end C113

/-- C113: a time lease of one second is sent as zero steps of two seconds, and both sides do not get
connected: the condition on the lease is needed. -/
theorem C113_too_short : ∃ es, Timely C113.values 200 200 (start 1 true 6000) es ∧
    max (6000 : Int) 5000 + 500 + 2 * 200 + 2 * 200 < (run C113.values (start 1 true 6000) es).1.now ∧
    (run C113.values (start 1 true 6000) es).1.py.running = false ∧
    (run C113.values (start 1 true 6000) es).1.dev.connected = false :=
  ⟨C113.rounds 8, by decide +kernel, by decide +kernel, by decide +kernel, by decide +kernel⟩

end PySwitch.Props
