import Verif.Model.Ports

/-!
What C175 says about the lists of MIDI ports.
-/

namespace PySwitch.Ports.Spec
open PySwitch.Ports PySwitch.PortScan

/-- The inputs and outputs available after a history. -/
def available (i o : List Port) : List Ev → List Port × List Port
  | [] => (i, o)
  | .ports i o :: es => available i o es
  | _ :: es => available i o es

/-- The names of the ports which are available in both directions. -/
def connected (i o : List Port) : List String :=
  i.flatMap fun a => (o.filter fun b => b.manufacturer == a.manufacturer && b.name == a.name).map fun b => b.name

/-- No port comes or goes. -/
def Still (es : List Ev) : Prop := ∀ e ∈ es, ∀ i o, e ≠ .ports i o

/-- The list has not been opened. -/
def Unopened (p : Nat) (es : List Ev) : Prop := Ev.openList p ∉ es

end PySwitch.Ports.Spec
