import Verif.Model.FrontendLists

/-!
What the lists of actions in the editor are expected to do.
-/

namespace PySwitch.FrontendLists.Spec
open PySwitch.FrontendLists

variable {α : Type}

/-- The actions of the inputs: for each input those for a press (`false`) and for holding (`true`). -/
abbrev Config (α : Type) := Nat → Bool → List α

/-- One list is another one now. -/
def Config.set (c : Config α) (n : Nat) (hold : Bool) (l : List α) : Config α := fun j h => if j = n ∧ h = hold then l else c j h

/-- The actions of a row of items for a place, in their order. -/
def acts (l : List (Item α)) (hold : Bool) : List α := (l.filter fun i => i.hold == hold).map Item.act

/-- What an operation is meant to do: a new action is the last one, an action is replaced or removed or moved to the end of the other list, or the
actions of two inputs are as they have been arranged. -/
def Config.apply (c : Config α) : Op α → Config α
  | .add n hold a => c.set n hold (c n hold ++ [a])
  | .replace n hold i a => c.set n hold ((c n hold).set i a)
  | .remove n hold i => c.set n hold ((c n hold).eraseIdx i)
  | .change n hold i a =>
    if i < (c n hold).length then (c.set n hold ((c n hold).eraseIdx i)).set n (!hold) (c n (!hold) ++ [a]) else c
  | .drag n m l k => fun j h => if j = n then acts l h else if j = m then acts k h else c j h

/-- The operations of a history. -/
def ops : List (Ev α) → List (Op α)
  | [] => []
  | .user o :: es => o :: ops es
  | _ :: es => ops es

/-- Nothing is left to be done. -/
def Idle (s : State α) : Prop := s.timers = [] ∧ s.restarts = []

/-- The step comes in time: the user waits until nothing is left to be done, and a restart only takes place after the timers. -/
def InTime (s : State α) : Ev α → Prop
  | .user _ => Idle s
  | .fire => True
  | .restart => s.timers = []

/-- Dragging only arranges the items which are shown for the two inputs, and starts at an input which has some. -/
def Arranges (s : State α) : Ev α → Prop
  | .user (.drag n m l k) => s.grid n ≠ [] ∧ (if n = m then l.Perm (s.grid n) else (l ++ k).Perm (s.grid n ++ s.grid m))
  | _ => True

/-- All steps come in time. -/
def Orderly (s : State α) : List (Ev α) → Prop
  | [] => True
  | e :: es => InTime s e ∧ Arranges s e ∧ Orderly (s.step e) es

/-- The inputs which an operation is about. -/
def inputs : Op α → List Nat
  | .add n _ _ => [n]
  | .replace n _ _ _ => [n]
  | .remove n _ _ => [n]
  | .change n _ _ _ => [n]
  | .drag n m _ _ => [n, m]

end PySwitch.FrontendLists.Spec
