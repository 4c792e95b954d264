import Verif.Model.PortScan

/-!
What the search for ports with a device behind is expected to do.
-/

namespace PySwitch.PortScan.Spec
open PySwitch.PortScan

/-- The attempt exists and its time is not over. -/
def Open (n : Nat) (before : List Ev) (i : Nat) : Prop := i < n ∧ Ev.timeout i ∉ before

/-- The first answer which comes in time is that of the attempt `i`. -/
def FirstAnswer (n : Nat) (es : List Ev) (i : Nat) : Prop :=
  ∃ before after, es = before ++ .answer i :: after ∧ Open n before i ∧ ∀ j b a, before = b ++ .answer j :: a → ¬ Open n b j

/-- There is no answer in time. -/
def NoAnswer (n : Nat) (es : List Ev) : Prop := ∀ j b a, es = b ++ .answer j :: a → ¬ Open n b j

/-- The time of all attempts is over. -/
def AllOver (n : Nat) (es : List Ev) : Prop := ∀ i, i < n → Ev.timeout i ∈ es

end PySwitch.PortScan.Spec
