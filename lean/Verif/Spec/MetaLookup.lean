import Verif.Model.MetaLookup
/-!
What the file of meta information says.
-/
namespace PySwitch.MetaLookup.Spec
open PySwitch.MetaLookup

/-- The file has the definition for the function of the client. -/
def Has {F D : Type} (meta_ : List (ClientDef F D)) (client func : Name) (e : FunctionDef F D) : Prop :=
  ∃ c ∈ meta_, c.client = client ∧ e ∈ c.entities ∧ e.entityName = func

/-- The file defines the parameter of the function of the client. -/
def Defines {F D : Type} (meta_ : List (ClientDef F D)) (client func param : Name) (d : D) : Prop :=
  ∃ e, Has meta_ client func e ∧ ⟨param, d⟩ ∈ e.parameters

/-- No function of a client is described twice, and no parameter of a function. -/
def Unique {F D : Type} (meta_ : List (ClientDef F D)) : Prop :=
  (∀ client func e e', Has meta_ client func e → Has meta_ client func e' → e = e') ∧
  ∀ client func param d d', Defines meta_ client func param d → Defines meta_ client func param d' → d = d'

end PySwitch.MetaLookup.Spec
