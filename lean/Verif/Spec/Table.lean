import Verif.Model.Table
/-
What the device does with requests, and what it means that parameters are told apart.
-/
namespace PySwitch.Spec
open PySwitch PySwitch.Wire PySwitch.Mapping PySwitch.Table

/-- The address a Kemper message is about: what follows product type and device id in the data, without values. -/
def address : Msg → Option (List Nat)
  | .sysex _ (_ :: _ :: _ :: i :: page :: addr :: _) => some [i, page, addr]
  | _ => none

/-- The device answers a request for a number (function 0x41) with function 0x01, the same instance, page and address, and the
value in two bytes; and a request for a string (0x43) with function 0x03 and the characters, terminated by zero. Product type and
device id of its answers are zero. -/
def answerNum (value : Nat) : Msg → Option Msg
  | .sysex m [_, _, 0x41, i, page, addr] => some (.sysex m [0, 0, 0x01, i, page, addr, value / 128, value % 128])
  | _ => none

def answerText (chars : List Nat) : Msg → Option Msg
  | .sysex m [_, _, 0x43, i, page, addr] => some (.sysex m ([0, 0, 0x03, i, page, addr] ++ chars ++ [0]))
  | _ => none

/-- The pairs of different parameters which are about the same thing in the device. -/
def sameInDevice : List (String × String) :=
  [("Morph Button", "Morph"),
   ("Slot State DLY", "Slot State DLYns"), ("Slot Type DLY", "Slot Type DLYns"), ("Mix DLY", "Mix DLYns"),
   ("Freeze DLY", "Freeze DLYns"), ("Rot. Speed DLY", "Rot. Speed DLYns"),
   ("Slot State REV", "Slot State REVns"), ("Slot Type REV", "Slot Type REVns"), ("Mix REV", "Mix REVns"),
   ("Freeze REV", "Freeze REVns"), ("Rot. Speed REV", "Rot. Speed REVns")]

/-- Two names mean the same parameter of the device. -/
def Same (a b : String) : Prop := a = b ∨ (a, b) ∈ sameInDevice ∨ (b, a) ∈ sameInDevice

instance (a b : String) : Decidable (Same a b) := by unfold Same; infer_instance

/-- From the documentation of the device: for each effect slot, the controller which switches it and the page of its parameters.
(The last two are the delay and reverb slots switched without spillover.) -/
def slotDoc : List (String × Nat × Nat) :=
  [("A", 17, 50), ("B", 18, 51), ("C", 19, 52), ("D", 20, 53), ("X", 22, 56), ("MOD", 24, 58),
   ("DLY", 27, 60), ("REV", 29, 61), ("DLYns", 26, 60), ("REVns", 28, 61)]

/-- The data of a SysEx message which sets a parameter: function 1, with the address but without value. -/
def isSet : Msg → Bool
  | .sysex m [_, _, 1, 0, _, _] => decide (m = [0x00, 0x20, 0x33])
  | _ => false

/-- From the documentation of the device: the controllers of its functions (without the effect slots, see `slotDoc`). -/
def controlDoc : List (String × Nat) :=
  [("Wah", 1), ("Pitch", 4), ("Vol", 7), ("Morph", 11), ("Tap Tempo", 30), ("Tuner Mode", 31), ("Freeze", 35),
   ("Select Bank", 47), ("Next Bank", 48), ("Prev Bank", 49), ("Select Rig 1", 50), ("Select Rig 2", 51), ("Select Rig 3", 52),
   ("Select Rig 4", 53), ("Select Rig 5", 54), ("DlMix", 68), ("Feed", 69), ("RvMix", 70), ("RvTime", 71), ("OutVol", 73),
   ("Effect Button 1", 75), ("Effect Button 2", 76), ("Effect Button 3", 77), ("Effect Button 4", 78), ("Morph Button", 80)]

/-- From the documentation of the device: page and number of its parameters (without the effect slots). -/
def addressDoc : List (String × Nat × Nat) :=
  [("Rig Name", 0, 1), ("Rig Date", 0, 3), ("Rig Comment", 0, 4), ("Amp Name", 0, 16), ("Cab Name", 0, 32),
   ("Morph Button", 0, 11), ("Morph", 0, 11), ("BPM", 4, 0), ("RigVol", 4, 1), ("RigTrans", 4, 4), ("TranspSt", 5, 1), ("FixGateSt", 5, 6),
   ("FixCompSt", 5, 11), ("FixBoost", 5, 16), ("FixWah", 5, 21), ("FixChor", 5, 26), ("FixAir", 5, 36), ("FixTracker", 5, 41),
   ("Amp State", 10, 2), ("Gain", 10, 4), ("Cab State", 12, 2), ("MainVol", 127, 0), ("MonVol", 127, 2), ("SpaceInt", 127, 36),
   ("LoopVol", 127, 52), ("Freeze A", 125, 107), ("Freeze B", 125, 108), ("Freeze C", 125, 109), ("Freeze D", 125, 110),
   ("Freeze X", 125, 111), ("Freeze MOD", 125, 113), ("Freeze DLY", 125, 114), ("Freeze REV", 125, 115),
   ("Freeze DLYns", 125, 114), ("Freeze REVns", 125, 115)]

/-- The numbers of the parameters each effect slot has. -/
def slotAddressDoc : List (String × Nat) := [("Slot Type ", 0), ("Slot State ", 3), ("Rot. Speed ", 30), ("Mix ", 69)]

/-- All of them. -/
def allAddresses : List (String × Nat × Nat) :=
  addressDoc ++ slotDoc.flatMap fun s => slotAddressDoc.map fun a => (a.1 ++ s.1, s.2.2, a.2)
def allControls : List (String × Nat) := controlDoc ++ slotDoc.map fun s => ("Slot State " ++ s.1, s.2.1)

/-- What is reported by the device without being asked, after subscribing to parameter set 2. -/
def reportedDoc : List String :=
  ["Slot Type A", "Slot State A", "Slot Type B", "Slot State B", "Slot Type C", "Slot State C", "Slot Type D", "Slot State D",
   "Slot Type X", "Slot State X", "Slot Type MOD", "Slot State MOD", "Rig Name", "Tuner Mode", "Tuner Note", "Tuner Deviance"]

end PySwitch.Spec
