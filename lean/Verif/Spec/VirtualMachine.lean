import Verif.Model.VirtualMachine
import Verif.Spec.VirtualSetup

/-!
What the tempo, the tuner and the morphing of the virtual Kemper shall do.
-/

namespace PySwitch.Kemper.Machine.Spec
open PySwitch.Kemper.Virtual PySwitch.Kemper.Setup

/-- The whole number next to `n / d` (halves are rounded up). -/
def nearest (n d : Nat) : Nat := (2 * n + d) / (2 * d)

/-- The tempo: beats per minute (0 is off, 256 is 256 or more), the last tap and the last value of the tap button. -/
structure Metronome where
  bpm : Nat := 120
  lastTap : Option Int := none
  button : Nat := 0

/-- A tap. Two taps not more than 3 seconds apart make a beat. -/
def Metronome.tap (c : Metronome) (now : Int) : Metronome :=
  match c.lastTap with
  | none => { c with lastTap := some now }
  | some t =>
    if now - t > 3000 then { c with lastTap := some now }
    else { c with lastTap := some now, bpm := if now ≤ t then 256 else min 256 (nearest 60000 (now - t).toNat) }

/-- The tempo for a value of the parameter: the value is 64 times the BPM, 16383 is for 256. -/
def ofValue (v : Nat) : Nat := if v = 16383 then 256 else min 256 (nearest v 64)

/-- The value of the parameter for a tempo. -/
def shown (bpm : Nat) : Nat := if bpm ≥ 256 then 16383 else 64 * bpm

/-- The message sets the parameter. -/
def Sets (page number : Nat) (m : List Nat) : Prop := m.take 10 = [240, 0, 32, 51, 2, 127, 1, 0, page, number]

instance (page number : Nat) (m : List Nat) : Decidable (Sets page number m) := by unfold Sets; exact inferInstance

/-- A MIDI message. Only pushing the tap button counts, not a repetition of its value. -/
def Metronome.message (c : Metronome) (now : Int) (m : List Nat) : Metronome :=
  if m.take 2 = [176, 30] then
    let v := m.getD 2 0
    if v = c.button then c
    else
      let c := { c with button := v }
      if v = 1 then c.tap now else c
  else if Sets 4 0 m then { c with bpm := ofValue (m.getD 10 0 * 128 + m.getD 11 0) }
  else c

/-- One event. -/
def Metronome.step (c : Metronome) : Ev → Metronome
  | .receive now _ m => c.message now m
  | .update _ => c
  | .use _ _ (.tempo bpm) => { c with bpm := min 256 bpm }
  | .use _ _ (.dev (.value 4 0 (.num v))) => { c with bpm := ofValue v }
  | .use _ _ _ => c

/-- The device gets complete messages only. -/
def Proper : Ev → Prop
  | .receive _ _ m => Setup.Spec.Midi m ∧ (Sets 4 0 m → m.length = 13)
  | _ => True

/-- The event has nothing to do with the tempo. -/
def NoTempo : Ev → Prop
  | .receive _ _ m => m.take 2 ≠ [176, 30] ∧ ¬Sets 4 0 m ∧ ¬Sets 124 0 m
  | .update _ => True
  | .use _ _ (.tempo _) => False
  | .use _ _ (.dev (.value page number _)) => (page, number) ≠ (4, 0) ∧ (page, number) ≠ (124, 0)
  | .use _ _ _ => True

/-- The times of the updates. -/
def updates : List Ev → List Int
  | [] => []
  | .update now :: es => now :: updates es
  | _ :: es => updates es

/-- How often the tempo light changes at `bpm` in updates at some times, when it has changed last at `last`: always when more than half a beat
(30000 / `bpm` ms) has passed. -/
def flips (bpm : Nat) : Int → List Int → Nat
  | _, [] => 0
  | last, t :: ts => if 30000 < (t - last) * bpm then 1 + flips bpm t ts else flips bpm last ts

/-- The light, after some changes. -/
def light (v : Nat) : Nat → Nat
  | 0 => v
  | n + 1 => light (if v = 0 then 1 else 0) n

/-- The report of a numeric parameter. -/
def report (page number v : Nat) : List Nat := [240, 0, 32, 51, 0, 0, 1, 0, page, number, v / 128, v % 128, 247]

/-- The question for the value of a numeric parameter. -/
def ask (page number : Nat) : List Nat := [240, 0, 32, 51, 2, 127, 65, 0, page, number, 247]

/-- The tuner: the mode (1 is on), and the time when its values have been sent last (at first: the time of the start). -/
structure Tuner where
  mode : Nat := 0
  last : Int

/-- The values of the tuner are sent in an update at this time: the tuner is on, and more than 20 ms have passed. -/
def Tuner.sounds (t : Tuner) (now : Int) : Prop := t.mode = 1 ∧ t.last + 20 < now

instance (t : Tuner) (now : Int) : Decidable (t.sounds now) := by unfold Tuner.sounds; exact inferInstance

/-- One event. -/
def Tuner.step (t : Tuner) : Ev → Tuner
  | .receive _ _ m =>
    if m.take 2 = [176, 31] then { t with mode := m.getD 2 0 }
    else if Sets 127 126 m then { t with mode := m.getD 10 0 * 128 + m.getD 11 0 }
    else t
  | .update now => if t.sounds now then { t with last := now } else t
  | .use _ _ (.dev (.value 127 126 (.num n))) => { t with mode := n }
  | _ => t

/-- Messages which set the tuner mode or the morph state are complete. -/
def Complete : Ev → Prop
  | .receive _ _ m => Setup.Spec.Midi m ∧ (Sets 127 126 m ∨ Sets 0 11 m → m.length = 13)
  | _ => True

/-- The messages about the note and the deviation of the tuner. -/
def tunerReports (out : List (List Nat)) : List (List Nat) :=
  out.filter fun b => b.take 10 = [240, 0, 32, 51, 0, 0, 1, 0, 125, 84] ∨ b.take 10 = [240, 0, 32, 51, 0, 0, 1, 0, 124, 15]

/-- The morphing: its state (16383 is fully morphed), where it is going to, the last value of the morph button, if the rig buttons trigger it, the
selection of rigs and the rig which has been chosen with a rig button last. `bug` is the option `simulateMorphBug`: the buttons do nothing. -/
structure Morph where
  bug : Bool
  state : Nat := 0
  target : Option Nat := none
  button : Nat := 0
  rigButton : Bool := true
  player : Setup.Spec.Player := {}
  chosen : Option Nat := none

/-- The morphing is started, to the other end. -/
def Morph.trigger (s : Morph) : Morph :=
  if s.bug then s else { s with target := some (if s.state > 8191 then 0 else 16383) }

/-- One step on the way from `v` to `target`: 410 (a fortieth of 16384); the last one may be shorter. -/
def towards (v target : Nat) : Nat := if v < target then min target (v + 410) else max target (v - 410)

/-- An update. -/
def Morph.update (s : Morph) : Morph :=
  match s.target with
  | none => s
  | some t => if s.state = t then { s with target := none } else { s with state := towards s.state t }

/-- The rig button `i` gets the value `v`. Another rig begins without morphing, the same one again triggers it. -/
def Morph.press (s : Morph) (i v : Nat) : Morph :=
  let player := s.player.press i v
  let pushed := s.player.button i ≠ v ∧ v = 1
  if pushed ∧ s.chosen ≠ some player.rig then { s with player, state := 0, chosen := some player.rig }
  else if pushed ∧ s.rigButton then { s with player }.trigger
  else { s with player }

/-- A message. -/
def Morph.message (s : Morph) (m : List Nat) : Morph :=
  match m with
  | [176, 11, v] => { s with state := 128 * v }
  | [176, 80, v] =>
    if v = s.button then s
    else if v = 1 then { s with button := v }.trigger
    else { s with button := v }
  | [176, c, v] =>
    if 50 ≤ c ∧ c ≤ 54 then s.press (c - 50) v
    else { s with player := s.player.message m }
  | m =>
    if Sets 0 11 m then { s with state := m.getD 10 0 * 128 + m.getD 11 0 }
    else { s with player := s.player.message m }

/-- One event. -/
def Morph.step (s : Morph) : Ev → Morph
  | .receive _ _ m => s.message m
  | .update _ => s.update
  | .use _ _ (.rigButton on) => { s with rigButton := on }
  | .use _ _ (.dev (.rig n)) => { s with player := { s.player with rig := n } }
  | .use _ _ (.dev (.value 0 11 (.num v))) => { s with state := v }
  | .use _ _ _ => s

/-- The morph state after some updates. -/
def morphed (v target : Nat) : Nat → Nat
  | 0 => v
  | n + 1 => morphed (towards v target) target n

/-- The event has nothing to do with the morphing: it concerns neither the morph state and button, nor the rig buttons. -/
def NoMorph : Ev → Prop
  | .receive _ _ m => ¬Sets 0 11 m ∧ ∀ c, c = 11 ∨ c = 80 ∨ (50 ≤ c ∧ c ≤ 54) → m.take 2 ≠ [176, c]
  | .use _ _ (.dev (.value page number _)) => (page, number) ≠ (0, 11)
  | _ => True

end PySwitch.Kemper.Machine.Spec
