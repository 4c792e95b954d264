import Verif.Model.MonitorOptions
/-!
What the options of the MIDI monitor are after a history: each click on a button turns its option over.
-/
namespace PySwitch.MonitorOptions.Spec

/-- The number of clicks on a button, or of other events of a kind. -/
def clicks (e : Ev) (history : List Ev) : Nat := (history.filter fun x => x == e).length

/-- Events which neither start nor stop the monitor. -/
def Quiet : Ev → Prop
  | .clearButton | .bytesButton | .valuesButton | .hexButton | .message | .reload => True
  | _ => False

end PySwitch.MonitorOptions.Spec
