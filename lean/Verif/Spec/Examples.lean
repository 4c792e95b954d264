import Verif.Model.Examples
/-!
Which examples there are, and what the user finds in the tree.
-/
namespace PySwitch.Examples.Spec
open PySwitch.Examples

/-- The folder or file which one gets to by these names, without passing something which is left out. -/
inductive Reach (skip : Text → Bool) : Node → List Text → Node → Prop
  | here (x : Node) : Reach skip x [] x
  | child (n : Text) (cs : List Node) (c : Node) (p : List Text) (x : Node) (hc : c ∈ cs) (hs : skip c.name = false) (h : Reach skip c p x) :
      Reach skip (.dir n cs) (c.name :: p) x

/-- There is an example at this path: a folder without subfolders. -/
def IsExample (skip : Text → Bool) (children : List Node) (p : List Text) : Prop :=
  ∃ n cs, Reach skip (toc children) p (.dir n cs) ∧ ∀ c ∈ cs, c.isDir = false

/-- The entry the user gets to by choosing the entries with these names one after another. -/
inductive Shown : Item → List Text → Item → Prop
  | here (e : Item) : Shown e [] e
  | child (e c : Item) (p : List Text) (x : Item) (hc : c ∈ e.children) (h : Shown c p x) : Shown e (c.value :: p) x

/-- The path of a folder as text. -/
def pathText (p : List Text) : Text := p.flatMap fun n => '/' :: n

/-- No two things in a folder have the same name. -/
inductive Distinct : Node → Prop
  | dir (n : Text) (cs : List Node) (h : (cs.map Node.name).Nodup) (hc : ∀ c ∈ cs, Distinct c) : Distinct (.dir n cs)
  | file (n : Text) : Distinct (.file n)

/-- Each folder with subfolders has one which is not left out. -/
inductive Kept (skip : Text → Bool) : Node → Prop
  | dir (n : Text) (cs : List Node) (h : (∃ c ∈ cs, c.isDir = true) → ∃ c ∈ cs, c.isDir = true ∧ skip c.name = false) (hc : ∀ c ∈ cs, Kept skip c) : Kept skip (.dir n cs)
  | file (n : Text) : Kept skip (.file n)

end PySwitch.Examples.Spec
