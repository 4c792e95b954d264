import Verif.Model.InputSettings

/-!
What the settings of a switch mean, and how a careful user works with the dialog.
-/

namespace PySwitch.InputSettings.Spec
open PySwitch.Properties (Text lit intText)

/-- The device uses this hold time: the number which is written in the configuration, or 600. (`content/lib/pyswitch/controller/inputs.py:60`.) -/
def UsedTime (o : Opts) (ms : Int) : Prop :=
  match o.time with
  | none => ms = 600
  | some t => t = intText ms

/-- The device repeats the hold actions, or not. (`content/lib/pyswitch/controller/inputs.py:44`.) -/
def UsedRepeat (o : Opts) (b : Bool) : Prop :=
  match o.rep with
  | none => b = false
  | some t => t = if b then lit "True" else lit "False"

/-- A careful user: the dialog is only opened for a switch which is in the configuration, and only when the emulator has been restarted after the
last change (`settled`); only one change is made after opening it (`fresh`), and the hold time is a natural number. -/
def Careful (known : Nat → Prop) : (settled fresh : Bool) → List Ev → Prop
  | _, _, [] => True
  | settled, _, .openFor n :: es => settled = true ∧ known n ∧ Careful known settled true es
  | settled, _, .close :: es => Careful known settled false es
  | _, fresh, .time t :: es => fresh = true ∧ (∃ m : Nat, t = intText m) ∧ Careful known false false es
  | _, fresh, .rep _ :: es => fresh = true ∧ Careful known false false es
  | _, fresh, .restarted :: es => Careful known true fresh es

/-- One switch gets another option, all others stay. -/
def change (code : Nat → Option Opts) (n : Nat) (f : Opts → Opts) : Nat → Option Opts :=
  fun k => if k = n then (code k).map f else code k

/-- What the user wants: each change is made for the switch for which the dialog has been opened last. -/
def wanted : Option Nat → (Nat → Option Opts) → List Ev → (Nat → Option Opts)
  | _, code, [] => code
  | _, code, .openFor n :: es => wanted (some n) code es
  | _, code, .close :: es => wanted none code es
  | d, code, .restarted :: es => wanted d code es
  | some n, code, .time t :: es => wanted (some n) (change code n fun o => ⟨some t, o.rep⟩) es
  | some n, code, .rep b :: es => wanted (some n) (change code n fun o => ⟨o.time, some (if b then lit "True" else lit "False")⟩) es
  | none, code, .time _ :: es => wanted none code es
  | none, code, .rep _ :: es => wanted none code es

end PySwitch.InputSettings.Spec
