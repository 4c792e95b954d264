import Verif.Model.Explore
/-
What explore mode has to show.
-/
namespace PySwitch.Spec
open PySwitch PySwitch.Explore

/-- What a history of presses leaves: the i-th of n switches is lit, all others are in the background color. -/
def OnlyLit (n i : Nat) (ls : List Light) : Prop :=
  ls.length = n ∧ ls[i]? = some .white ∧ ∀ j, j < n → j ≠ i → ls[j]? = some .blue

/-- The sum of the steps of presses. -/
def steps (switches : List Explore.Switch) (ks : List Nat) : Int := (ks.map (fun k => (switches[k]?.map (·.step)).getD 0)).sum

end PySwitch.Spec
