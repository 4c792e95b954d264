import Verif.Model.MappingOptions
/-!
The calls of a mapping, and what a sorted list of texts is.
-/
namespace PySwitch.MappingOptions.Spec
open PySwitch.MappingOptions

/-- The values a parameter allows. -/
def Allows (p : Parameter) (v : List Char) : Prop := ∃ vs, v ∈ vs ∧ (p.range = some vs ∨ p.range = none ∧ p.values = some vs)

/-- The values of a parameter: those of its range, and else those given. -/
def valuesOf (p : Parameter) : List (List Char) := (p.range.or p.values).getD []

/-- The parameter has values at all. -/
def HasValues (p : Parameter) : Prop := p.range ≠ none ∨ p.values ≠ none

/-- The text is a call of the mapping: without arguments if it has no parameters, and else with an allowed value for the first one, by name if there are more. -/
inductive Call (m : Mapping) : List Char → Prop
  | plain : m.parameters = [] → Call m (m.name ++ "()".toList)
  | single (p : Parameter) (v : List Char) : m.parameters = [p] → Allows p v → Call m (m.name ++ "(".toList ++ v ++ ")".toList)
  | named (p q : Parameter) (ps : List Parameter) (v : List Char) : m.parameters = p :: q :: ps → Allows p v →
      Call m (m.name ++ "(".toList ++ p.name ++ " = ".toList ++ v ++ ")".toList)

/-- The calls of a mapping, one for each value. -/
def callsOf (m : Mapping) : List (List Char) :=
  match m.parameters with
  | [] => [m.name ++ "()".toList]
  | [p] => (valuesOf p).map fun v => m.name ++ "(".toList ++ v ++ ")".toList
  | p :: _ :: _ => (valuesOf p).map fun v => m.name ++ "(".toList ++ p.name ++ " = ".toList ++ v ++ ")".toList

/-- The order of texts by the codes of their characters: a text comes before another one if it is a beginning of it, or if it has the smaller character at the first difference. -/
def NotAfter (a b : List Char) : Prop :=
  (∃ t, b = a ++ t) ∨ ∃ p c d s t, a = p ++ c :: s ∧ b = p ++ d :: t ∧ c.toNat < d.toNat

end PySwitch.MappingOptions.Spec
