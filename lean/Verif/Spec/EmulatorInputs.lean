import Verif.Model.EmulatorInputs

/-! Specification for C147: when a switch is held, and how far a wheel has been turned. -/

namespace PySwitch.EmulatorInputs.Spec

/-- Starts to hold the switch. -/
def Press (e : Pointer) : Prop := e = .mousedown ∨ e = .touchstart

/-- Lets the switch go, or leaves it. -/
def Release (e : Pointer) : Prop := e = .mouseup ∨ e = .touchend ∨ e = .mouseout ∨ e = .mouseleave

/-- The user holds the switch: it was pressed, and not released since. -/
def Held (es : List Pointer) : Prop := ∃ pre e post, es = pre ++ e :: post ∧ Press e ∧ ∀ x ∈ post, ¬ Release x

/-- What the user did, without the polls. -/
def user : List SwitchEv → List Pointer
  | [] => []
  | .user e :: es => e :: user es
  | .poll :: es => user es

/-- The user turns the wheel from `x` along `path`, or moves the pointer without it. -/
inductive Gesture where
  | drag (x : Rat) (path : List Rat)
  | pass (x : Rat)
deriving Repr

/-- The events of a gesture. -/
def Gesture.events : Gesture → List WheelEv
  | .drag x path => .down x :: path.map .move ++ [.up]
  | .pass x => [.move x]

/-- The way from the start to the end of a gesture, to the nearest whole number. -/
def Gesture.way : Gesture → Int
  | .drag x path => mathRound (path.getLast?.getD x - x)
  | .pass _ => 0

end PySwitch.EmulatorInputs.Spec
