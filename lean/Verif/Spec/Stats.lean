import Verif.Model.Stats

/-!
What the reports on the memory mean, in terms of the calls only.
-/

namespace PySwitch.Stats.Spec
open PySwitch.Stats

/-- The free memory a call has seen. -/
def seen : Op → Int
  | .start free _ => free
  | .watch free _ => free

/-- Is monitoring switched on by the call? -/
def isStart : Op → Bool
  | .start _ _ => true
  | .watch _ _ => false

/-- The amounts reported as allocated in some lines, summed up. -/
def reported : List (Option Line) → Int
  | [] => 0
  | some (.report r) :: ls => r.allocated + reported ls
  | _ :: ls => reported ls

/-- The units of a size, each 1024 times the one before. -/
def units : List String := [" B", " KiB", " MiB", " GiB", " TiB", " PiB", " EiB", " ZiB", "YiB"]

/-- A number of tenths as text. -/
def decimal (t : Int) : String :=
  (if t < 0 then "-" else "") ++ Nat.repr (t.natAbs / 10) ++ "." ++ Nat.repr (t.natAbs % 10)

/-- All calls of a history tell sensible numbers. -/
def Sane (ops : List Op) : Prop :=
  ∀ op ∈ ops, match op with
    | .start free allocated => 0 ≤ free ∧ 0 < allocated
    | .watch free _ => 0 ≤ free

end PySwitch.Stats.Spec
