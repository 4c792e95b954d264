import Verif.Model.Browser
/-!
What the user relies on, independently of the implementation.
-/
namespace PySwitch.Browser.Spec
open PySwitch.Browser

/-- Something can be done with the entry: it can be selected, or it is a folder with contents. -/
def Useful (e : Entry) : Prop := e.onSelect ≠ none ∨ e.children ≠ []

/-- Entries below each other, from the first one down to the last one. -/
inductive Below : Entry → List Nat → Entry → Prop
  | here (e : Entry) : Below e [] e
  | child (e : Entry) (i : Nat) (c : Entry) (a : List Nat) (x : Entry) (h : e.children[i]? = some c) (hx : Below c a x) : Below e (i :: a) x

/-- Texts are unambiguous: no two children of an entry have the same text, all the way down. -/
inductive Distinct : Entry → Prop
  | mk (e : Entry) (h : (e.children.map Entry.text).Nodup) (hc : ∀ c ∈ e.children, Distinct c) : Distinct e

/-- Folders cannot be selected, as in all trees of the application. -/
def Folders (e : Entry) : Prop := ∀ a x, Below e a x → x.onSelect ≠ none → x.children = []

/-- All trees the popup is opened with have such folders only. -/
def AllFolders (es : List Ev) : Prop := ∀ tree, Ev.openTree tree ∈ es → Folders tree

/-- A total order of texts. -/
structure Order (le : String → String → Bool) : Prop where
  total : ∀ a b, le a b || le b a
  trans : ∀ a b c, le a b → le b c → le a c

end PySwitch.Browser.Spec
