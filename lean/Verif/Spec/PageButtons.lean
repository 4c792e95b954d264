/-!
Specification for the buttons which assign an action to a page (C207), independent of the model.
-/
namespace PySwitch.Spec.PageButtons

/-- A name which can stand for a variable: not empty, and no dots, quotes or line breaks. -/
def PlainName (t : List Char) : Prop := t ≠ [] ∧ ∀ c ∈ t, c ≠ '.' ∧ c ≠ '"' ∧ c ≠ '\n' ∧ c ≠ '\r'

/-- An id as it is written in the code: not empty, no double quotes, on one line. -/
def PlainId (t : List Char) : Prop := t ≠ [] ∧ ∀ c ∈ t, c ≠ '"' ∧ c ≠ '\n' ∧ c ≠ '\r'

/-- What a page is called: its text without quotes, or its id if there is none. -/
def Called (id : List Char) (text : Option (List Char)) (name : List Char) : Prop :=
  (∃ t, text = some t ∧ name = t.filter (fun c => decide (c ≠ '"' ∧ c ≠ '\'')) ∧ name ≠ []) ∨
  ((∀ t, text = some t → ∀ c ∈ t, c = '"' ∨ c = '\'') ∧ name = id)

end PySwitch.Spec.PageButtons
