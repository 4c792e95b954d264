import Verif.Model.Connections

/-! Specification for C146: how many bridges listen at a port, and histories of messages. -/

namespace PySwitch.Connections.Spec

/-- How many bridges get the messages of a port? -/
def listening (s : State) (port : String) : Nat := (s.listeners.filter fun x => x.2 == port).length

/-- Only messages are received. -/
def OnlyMessages (es : List LinkEv) : Prop := ∀ e ∈ es, (∃ now, e = .device now) ∨ ∃ now, e = .editor now

end PySwitch.Connections.Spec
