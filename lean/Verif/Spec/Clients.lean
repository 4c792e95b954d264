import Verif.Model.Clients
/-!
What the choice of a client means, and who may listen, independently of the implementation.
-/
namespace PySwitch.Clients

/-- The entries the user can choose from, besides the automatic choice (`PySwitchUI.js:545-573`, `PortsProvider.js:41-62`). -/
def Offered (ports : List String) (v : String) : Prop := v ∈ ports ∨ v = "Not connected" ∨ ∃ c ∈ known, v = "virtual-" ++ c

/-- What the emulator has to be connected to with that choice. -/
def Means (ports : List String) (v : String) : Option Target → Prop
  | none => v ∉ ports ∧ ∀ c ∈ known, v ≠ "virtual-" ++ c
  | some (.port p) => v = p ∧ p ∈ ports
  | some (.virtual c) => c ∈ known ∧ v = "virtual-" ++ c

/-- The choice which is remembered: the last one. -/
def lastChoice (es : List Ev) : Option String := (es.filterMap fun e => match e with | .choose v _ => some v | _ => none).getLast?

/-- Nothing is going on. -/
def State.Idle (s : State) : Prop := s.searches = [] ∧ s.creating = []

/-- An event which is neither a choice nor the loading of a configuration. -/
def Passive : Ev → Prop
  | .load _ => False
  | .choose _ _ => False
  | _ => True

/-- How a search ends: with a port or without. -/
def outcome (key : Nat) (es : List Ev) : Option (Option String) :=
  es.findSome? fun e => match e with
    | .found k p => if k = key then some (some p) else none
    | .nothing k => if k = key then some none else none
    | _ => none

end PySwitch.Clients
