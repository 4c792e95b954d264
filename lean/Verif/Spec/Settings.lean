import Verif.Model.Settings

/-! Specification of the settings dialog: which value has been chosen for an option. -/

namespace PySwitch.Spec.Settings

open PySwitch.Settings

/-- The values which the dialog shows initially. -/
def initially : String → Option PyVal
  | "updateInterval" => some (.num 200)
  | "maxConsecutiveMidiMessages" => some (.num 10)
  | "clearBuffers" => some (.bool true)
  | "maxRequestLifetimeMillis" => some (.num 2000)
  | "memoryWarnLimitBytes" => some (.num 15360)
  | "displayDimFactorOn" => some (.num 1)
  | "displayDimFactorOff" => some (.num (1 / 5))
  | "ledBrightnessOn" => some (.num (3 / 10))
  | "ledBrightnessOff" => some (.num (1 / 50))
  | "exploreMode" => some (.bool false)
  | "debugStats" => some (.bool false)
  | "debugStatsInterval" => some (.num 2000)
  | "debugBidirectionalProtocol" => some (.bool false)
  | "debugUnparsedMessages" => some (.bool false)
  | "debugSentMessages" => some (.bool false)
  | "debugClientStats" => some (.bool false)
  | _ => none

/-- The value of a field, if it has one: a number field can be empty. -/
def valueOf : Field → Option PyVal
  | .check b => some (.bool b)
  | .number x => x.map .num

/-- The value of an option after some changes (the last one first): the one chosen last, if there was no reset since. -/
def chosenLatest : List Change → String → Option PyVal
  | [], name => initially name
  | .reset :: _, name => initially name
  | .choose n f :: earlier, name => if n = name then valueOf f else chosenLatest earlier name

/-- The value of an option after some changes (in the order of time): `none` if its field is empty. -/
def chosen (history : List Change) (name : String) : Option PyVal := chosenLatest history.reverse name

/-- Changes which are possible: check boxes are check boxes, numbers are numbers. -/
def Possible (history : List Change) : Prop :=
  ∀ c ∈ history, match c with
    | .reset => True
    | .choose n (.check _) => (n, true) ∈ fields
    | .choose n (.number _) => (n, false) ∈ fields

instance (history : List Change) : Decidable (Possible history) :=
  @List.decidableBAll _ _ (fun c => by cases c with | reset => exact isTrue trivial | choose n f => cases f <;> infer_instance) _

/-- No field is left empty. -/
def Filled (history : List Change) : Prop := ∀ f ∈ fields, chosen history f.1 ≠ none

instance (history : List Change) : Decidable (Filled history) := by unfold Filled; infer_instance

end PySwitch.Spec.Settings
