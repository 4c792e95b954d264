import Verif.Model.Num
/-
Model of the callbacks which fill display labels with text: `KemperRigNameCallback`
(`content/lib/pyswitch/clients/kemper/__init__.py:68-134`), `ParameterDisplayCallback`
(`content/lib/pyswitch/controller/callbacks/parameter_display.py`) and `KemperTempoDisplayCallback`
(`content/lib/pyswitch/clients/kemper/callbacks/tempo_bpm.py`). The label calls `update_label` whenever a value comes in or gets
lost (`ui/elements.py:68-86`); a preview text set for the label (`override_text`) is not modelled here.
-/
namespace PySwitch.LabelText

/-! ## Rig name -/

/-- `clients/kemper/__init__.py:71-74, 119-126`: how the rig id is shown. -/
inductive ShowId where
  | no | rig | bank | both
deriving Repr, DecidableEq

/-- The arguments, and the default text (`clients/kemper/__init__.py:69, 114`). -/
structure Config where
  showName : Bool := true
  showId : ShowId := .no
  default : String := "PySwitch"
deriving Repr, DecidableEq

/-- The values of the mappings, `appl.shared["preselectedBank"]`, `__preselect_initialized` and the text of the label.
(`clients/kemper/__init__.py:71-107`.) -/
structure State where
  name : Option String := none
  id : Option Nat := none
  preselected : Option Nat := none
  seen : Option Nat := none
  text : String
deriving Repr, DecidableEq

/-- `clients/kemper/__init__.py:119-126`: the text for an id. (`int(value / 5)` is the quotient for rig ids.) -/
def idText (s : ShowId) (id : Nat) : String :=
  let bank := id / 5
  let rig := id % 5
  match s with
  | .rig => toString (rig + 1)
  | .bank => toString (bank + 1)
  | _ => toString (bank + 1) ++ "-" ++ toString (rig + 1)

/-- `clients/kemper/__init__.py:114`: the name shown; an empty name counts as none. -/
def Config.nameText (c : Config) : Option String → String
  | some n => if n = "" then c.default else n
  | none => c.default

/-- `clients/kemper/__init__.py:109-134` `update_label`. -/
def Config.updateLabel (c : Config) (st : State) : State :=
  match st.preselected with
  | some b => { st with text := "Bank " ++ toString (b + 1) }
  | none =>
    let name := c.nameText st.name
    match c.showId, st.id with
    | .no, _ => if c.showName then { st with text := name } else st
    | _, none => if c.showName then { st with text := name } else st
    | s, some id => { st with text := if c.showName then idText s id ++ " " ++ name else idText s id }

/-- What happens: the rig name or the rig id comes in or is lost (`none`, only if the mapping is registered, `clients/kemper/__init__.py:79-87`), the
preselected bank is set or removed, or an update (lines 95-107). -/
inductive Event where
  | name (n : Option String)
  | id (n : Option Nat)
  | preselect (b : Option Nat)
  | tick
deriving Repr, DecidableEq

/-- One event. (`clients/kemper/__init__.py:95-134`.) -/
def Config.step (c : Config) (st : State) : Event → State
  | .name n => if c.showName then c.updateLabel { st with name := n } else st
  | .id n => if c.showId ≠ .no then c.updateLabel { st with id := n } else st
  | .preselect b => { st with preselected := b }
  | .tick =>
    match st.preselected with
    | some b =>
      if st.seen ≠ some b then
        let st := { st with seen := some b }
        if c.showName || c.showId ≠ .no then c.updateLabel st else st
      else st
    | none => { st with seen := none }

/-- A history, for the text given in the layout. (No code of its own: a history of `Config.step`.) -/
def Config.run (c : Config) (text : String) (es : List Event) : State := es.foldl c.step { text }

/-! ## Parameters -/

/-- A value of a parameter. (`controller/client.py:42-43`.) -/
inductive Val where
  | num (n : Nat)
  | str (s : String)
deriving Repr, DecidableEq

/-- `str(value)`. (Used in `parameter_display.py:20, 24`.) -/
def Val.show : Val → String
  | .num n => toString n
  | .str s => s

/-- `parameter_display.py:16-26` `update_label`: the text for a value. -/
def paramText (convert : Option (Option Val → Option String)) (default : String) (v : Option Val) : String :=
  match convert.bind (fun f => f v) with
  | some t => t
  | none =>
    match v with
    | some x => x.show
    | none => default

/-- A history of values and losses of the value, for the text given in the layout.
(No code of its own: repeated `parameter_display.py:16-26`.) -/
def paramRun (convert : Option (Option Val → Option String)) (default text : String) (vs : List (Option Val)) : String :=
  vs.foldl (fun _ v => paramText convert default v) text

/-- `clients/kemper/mappings/tempo_bpm.py:32-33` `convert_bpm`; `round` rounds half to even. -/
def convertBpm (v : Nat) : String := toString (pyRound ((v : Rat) / 64))

/-- `callbacks/tempo_bpm.py:6-10`. -/
def tempoText : Option Val → Option String
  | none => none
  | some (.num v) => some (convertBpm v ++ " bpm")
  | some (.str _) => none

end PySwitch.LabelText
