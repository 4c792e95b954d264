import Verif.Model.LabelText
/-
Specification vocabulary for the texts of labels.
-/
namespace PySwitch.LabelText

/-- The value known last after a history: of the name, of the id, and the bank preselected. -/
def lastName (es : List Event) : Option String := es.foldl (fun s e => match e with | .name n => n | _ => s) none
def lastId (es : List Event) : Option Nat := es.foldl (fun s e => match e with | .id n => n | _ => s) none
def preselection (es : List Event) : Option Nat := es.foldl (fun s e => match e with | .preselect b => b | _ => s) none

/-- The bank which was preselected at the last update. -/
def atLastTick (es : List Event) : Option Nat :=
  (es.foldl (fun (s : Option Nat × Option Nat) e => match e with | .preselect b => (b, s.2) | .tick => (s.1, s.1) | _ => s) (none, none)).2

/-- Does the label show this parameter? -/
def Config.shows (c : Config) : Event → Bool
  | .name _ => c.showName
  | .id _ => c.showId ≠ .no
  | _ => false

/-- Is the label refreshed by this event, after this history? By the values it shows, and by updates when another bank has been
preselected since the last update. -/
def Config.refreshes (c : Config) (es : List Event) (e : Event) : Bool :=
  c.shows e || (e = .tick && (preselection es).isSome && atLastTick es ≠ preselection es && (c.showName || c.showId ≠ .no))

/-- The documented text: the bank preselected, or the id and/or the name of the rig (a default text if the name is not known).
`none` if nothing is to be shown yet. -/
def Config.wanted (c : Config) (es : List Event) : Option String :=
  match preselection es with
  | some b => some ("Bank " ++ toString (b + 1))
  | none =>
    let name := if (lastName es).getD "" = "" then c.default else (lastName es).getD ""
    let id := if c.showId = .no then none else (lastId es).map (idText c.showId)
    match id, c.showName with
    | some i, true => some (i ++ " " ++ name)
    | some i, false => some i
    | none, true => some name
    | none, false => none

end PySwitch.LabelText
