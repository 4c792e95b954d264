/-!
Model of the advanced parameters in the dialog with the properties of an action (`web/htdocs/js/ui/parser/ActionProperties.js:99-132, 188-252, 348-397`):
their rows are hidden first, and a button shows them level by level.

Left out: the inputs themselves (`Model/Properties.lean`).
-/
namespace PySwitch.AdvancedRows

abbrev Text := List Char

/-- A parameter: its name, its level (0: not advanced) and whether there are messages for it. (`ActionProperties.js:84, 109-115`.) -/
structure Param where
  name : Text
  level : Nat
  messages : Bool := false
deriving DecidableEq, Repr

/-- A row of an advanced parameter. (`ActionProperties.js:227-231`.) -/
structure Row where
  name : Text
  visible : Bool := false
deriving DecidableEq, Repr

/-- The dialog: rows which are always shown, rows by level, how many levels are shown, and the button with its text. (`ActionProperties.js:5-31, 188-209`.) -/
structure Dialog where
  base : List Text := []
  rows : List (List Row) := []
  level : Nat := 0
  button : Bool := false
  label : Text := "more...".toList
deriving DecidableEq, Repr

/-- `ActionProperties.js:222-224`: levels are added until there are enough. -/
def pad (rows : List (List Row)) (level : Nat) : List (List Row) := rows ++ List.replicate (level - rows.length) []

/-- A row is put at the end of its level. (`ActionProperties.js:226-231`.) -/
def put (name : Text) : List (List Row) → Nat → List (List Row)
  | [], _ => []
  | r :: rs, 0 => (r ++ [⟨name, false⟩]) :: rs
  | r :: rs, k + 1 => r :: put name rs k

/-- `ActionProperties.js:216-232` `registerAdvancedParameterRow`. -/
def register (rows : List (List Row)) (name : Text) (level : Nat) : List (List Row) := put name (pad rows level) (level - 1)

/-- `ActionProperties.js:109-132`, for one parameter. -/
def Dialog.add (d : Dialog) (p : Param) : Dialog :=
  if p.messages = false ∧ p.level ≠ 0 then { d with rows := register d.rows p.name p.level } else { d with base := d.base ++ [p.name] }

/-- `ActionProperties.js:188-209`: the button, if there are advanced parameters. -/
def Dialog.finish (d : Dialog) : Dialog := { d with button := decide (d.rows.length > 0) }

/-- `ActionProperties.js:43-212` `get`, for the rows. (The row for the name of the action, with level 2, is a parameter here: `ActionPropertiesInternal.js:61-68`.) -/
def start (params : List Param) : Dialog := (params.foldl Dialog.add {}).finish

/-- The rows of one level are shown. (`ActionProperties.js:240-242`.) -/
def showLevel : List (List Row) → Nat → List (List Row)
  | [], _ => []
  | r :: rs, 0 => r.map (fun x => { x with visible := true }) :: rs
  | r :: rs, k + 1 => r :: showLevel rs k

/-- `ActionProperties.js:196-204, 237-252`: a click on the button, if it is shown. -/
def Dialog.click (d : Dialog) : Dialog :=
  if d.button then
    let d := { d with level := d.level + 1 }
    if d.rows.length < d.level then d
    else
      let d := { d with rows := showLevel d.rows (d.level - 1) }
      let d := if d.rows.length = d.level + 1 then { d with label := "all...".toList } else d
      if d.rows.length = d.level then { d with button := false } else d
  else d

/-- `ActionProperties.js:389-397` `showParameter`. -/
def Dialog.showParameter (d : Dialog) (name : Text) : Dialog :=
  { d with rows := d.rows.map fun r => r.map fun x => if x.name = name then { x with visible := true } else x }

/-- What happens: clicks, and parameters which get a value that is not their default (`ActionProperties.js:354-363`). -/
inductive Op where
  | click
  | value (name : Text)
deriving DecidableEq, Repr

/-- One step. (See `Op`.) -/
def Dialog.step (d : Dialog) : Op → Dialog
  | .click => d.click
  | .value name => d.showParameter name

/-- Some steps. (No code of its own.) -/
def Dialog.run (d : Dialog) (ops : List Op) : Dialog := ops.foldl Dialog.step d

end PySwitch.AdvancedRows
