import Verif.Model.Display
/-
Elements of a tree.
-/
namespace PySwitch.Layout

/-- `x` is an element of the tree: the element itself, or one below. -/
inductive Elem.Contains : Elem → Elem → Prop
  | self (i : Info) (cs : List Elem) : Elem.Contains (.node i cs) (.node i cs)
  | child (i : Info) (cs : List Elem) (c x : Elem) : c ∈ cs → Elem.Contains c x → Elem.Contains (.node i cs) x

mutual
/-- How many elements of the tree have the given attributes. -/
def Elem.occurrences (x : Info) : Elem → Nat
  | .missing => 0
  | .node i cs => (if i = x then 1 else 0) + occurrencesAll x cs

/-- The same for a list. -/
def occurrencesAll (x : Info) : List Elem → Nat
  | [] => 0
  | c :: cs => c.occurrences x + occurrencesAll x cs
end

/-- A tree as built by the user: nothing has been initialised. -/
def Fresh (e : Elem) : Prop := ∀ i cs, e.Contains (.node i cs) → i.flag = false ∧ i.inits = 0

/-- Nothing is added to the tree being shown. -/
def NoLateAdds : Option Nat → List UiEvent → Prop
  | _, [] => True
  | _, .show k :: es => NoLateAdds (some k) es
  | cur, .add k _ _ :: es => cur ≠ some k ∧ NoLateAdds cur es

end PySwitch.Layout
