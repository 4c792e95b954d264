import Verif.Model.InputMarks
/-!
Which messages belong to an input.
-/
namespace PySwitch.InputMarks.Spec

/-- The messages for the input, in order. -/
def messagesFor (name : String) (messages : List Message) : List (String × Kind) :=
  (messages.filter fun m => m.input == some name).map fun m => (m.text, m.kind)

/-- All messages belong to inputs which exist (or to none). -/
def Known (inputs : List Input) (messages : List Message) : Prop :=
  ∀ m ∈ messages, ∀ name, m.input = some name → name ∈ inputs.map Input.name

/-- The names of the inputs are different. -/
def Different (inputs : List Input) : Prop := (inputs.map Input.name).Nodup

end PySwitch.InputMarks.Spec
