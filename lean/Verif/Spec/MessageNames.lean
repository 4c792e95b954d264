import Verif.Model.MessageNames
/-!
Which parameter a message belongs to.
-/
namespace PySwitch.MessageNames.Spec
open PySwitch.MessageNames
open PySwitch.Properties (Text lit)
open PySwitch.Kemper.Virtual

/-- The device takes the message for the parameter `name`: this is the first one which has a use for it. -/
def Takes (productType : Nat) (params : List (Text × Param)) (message : List Nat) (name : Text) (h : Hit) : Prop :=
  ∃ before p after, params = before ++ (name, p) :: after ∧ (∀ e ∈ before, e.2.hit productType message = none) ∧ p.hit productType message = some h

/-- The parameters of a device: they also receive on the key they send with. -/
def Device (params : List (Text × Param)) : Prop := ∀ e ∈ params, ∀ k, e.2.send = some k → k ∈ e.2.receive

/-- The addresses of the parameters which are sent as NRPN messages are different, and none of them is the beginning of another one. -/
def Addresses (params : List (Text × Param)) : Prop :=
  params.Pairwise fun a b => ∀ x y, a.2.send = some (.nrpn x) → b.2.send = some (.nrpn y) → ¬ x <+: y ∧ ¬ y <+: x

end PySwitch.MessageNames.Spec
