import Verif.Model.Properties

/-!
What the dialog with the properties of an action is expected to do.
-/

namespace PySwitch.Properties.Spec
open PySwitch.Properties

/-- The value which an action gets for a parameter: that of the argument, or the default of the python code. `none`: there is none. -/
def effective (p : Param) (args : List (Text × Option Val)) : Option Val :=
  match args.find? fun a => a.1 = p.name with
  | some a => a.2
  | none => p.default.map Val.code

/-- The arguments of an action in the configuration. -/
def given (args : List (Text × Val)) : List (Text × Option Val) := args.map fun a => (a.1, some a.2)

/-- With single quotes. -/
def single (t : Text) : Text := t.map fun c => if c = '"' then '\'' else c

/-- The same source code, with single quotes for all quotes. -/
def requoted : Val → Val
  | .code t => .code (single t)
  | .pages l => .pages l

/-- The same value, whatever quotes are used. -/
def Same (a b : Option Val) : Prop := a.map requoted = b.map requoted

/-- A string: its text in single or double quotes, without further quotes. -/
def IsString (t : Text) : Prop :=
  ∃ q s, (q = '"' ∨ q = '\'') ∧ t = q :: (s ++ [q]) ∧ ∀ c ∈ s, c ≠ '"' ∧ c ≠ '\''

/-- The value can be shown by the input of the parameter: the check box shows True and False, the number input shows numbers, the selection
its options (with single quotes), and a line of text everything which has no line breaks. A parameter for texts shows strings, and the
values which are excepted for it. -/
def Shows (p : Param) (v : Val) : Prop :=
  match fresh p, v with
  | some (.check _), .code t => t = lit "True" ∨ t = lit "False"
  | some (.number _), .code t => isNumber t
  | some (.choice options _), .code t => t ≠ [] ∧ single t ∈ options
  | some (.line _), .code t => t ≠ [] ∧ '\n' ∉ t ∧ '\r' ∉ t ∧ (p.md.type = some .text → IsString t ∨ single t ∈ p.md.unconverted)
  | some (.pages _), .pages l => ∀ q ∈ l, ('\n' ∉ q.id ∧ '\r' ∉ q.id) ∧
      ∀ t, q.color = some t ∨ q.text = some t → t ≠ [] ∧ '\n' ∉ t ∧ '\r' ∉ t
  | _, _ => False

/-- The parameter has the default of the python code in the dialog as well, and it can be shown. -/
def Stands (p : Param) : Prop :=
  ∃ d, p.default = some d ∧ defaultValue p = some d ∧
    match fresh p with
    | some (.check _) => d = lit "True" ∨ d = lit "False"
    | some (.number _) => d ≠ []
    | some (.choice options _) => d ≠ [] ∧ d ∈ options
    | some (.line _) => d ≠ [] ∧ '\n' ∉ d ∧ '\r' ∉ d ∧ (p.md.type = some .text → IsString d ∨ d ∈ p.md.unconverted)
    | _ => False

/-- The parameter whose options are the pages of a pager. -/
def pageParam : Kind → Option Text
  | .plain => none
  | .pager => some (lit "select_page")
  | .proxy _ => some (lit "page_id")

/-- Parameters of an action: the names are different. -/
def Distinct (ps : List Param) : Prop := (ps.map Param.name).Nodup

/-- The parameters of pagers and their proxies: that for the choice of a page is a selection of pages, and the pages of a pager are in the
parameter `pages`, and only there. -/
def PageParams (kind : Kind) (ps : List Param) : Prop :=
  (∀ p ∈ ps, some p.name = pageParam kind → p.md.type = some .selectPage) ∧
  (kind = .pager → ∃ q, q.name = lit "pages" ∧ (ps.find? fun p => typeOf p = some .pages) = some q)

/-- The pages which can be chosen: those of the pager (or none of them, which makes it rotate), or those of the pager which the proxy
belongs to. -/
def choosable (kind : Kind) (a : Action) : List Text :=
  match kind with
  | .plain => []
  | .pager =>
    (match a.args.find? fun x => x.1 = lit "pages" with
      | some (_, .pages l) => l.map Page.id
      | _ => []) ++ [lit "None"]
  | .proxy pagers =>
    match pagers.find? fun q => some q.1 = a.pager with
    | some q => q.2.map Page.id
    | none => []

/-- An action which the dialog can show. The names of the parameters and of the arguments are different, and all arguments belong to
parameters and can be shown. The page is one of those which can be chosen, and it comes after the pages. A proxy belongs to one of the pagers
of the configuration. -/
structure Editable (kind : Kind) (ps : List Param) (a : Action) : Prop where
  params : Distinct ps
  inputs : ∀ p ∈ ps, ∃ i, fresh p = some i
  pages : PageParams kind ps
  args : (a.args.map Prod.fst).Nodup
  shown : ∀ x ∈ a.args, ∃ p ∈ ps, p.name = x.1 ∧ (some p.name ≠ pageParam kind → Shows p x.2) ∧
    (some p.name = pageParam kind → ∃ t, x.2 = .code t ∧ t ∈ choosable kind a ∧ t ≠ [] ∧ '"' ∉ t)
  order : kind = .pager → ∀ pre post v, a.args = pre ++ (lit "select_page", v) :: post → lit "pages" ∉ post.map Prod.fst
  proxy : ∀ pagers, kind = .proxy pagers → ∃ x, a.pager = some x ∧ x ≠ [] ∧ x ∈ pagers.map Prod.fst
  plain : (∀ pagers, kind ≠ .proxy pagers) → a.pager = none

/-- The parameter is given, or it is known what it is otherwise. -/
def Known (kind : Kind) (a : Action) (p : Param) : Prop :=
  p.name ∈ a.args.map Prod.fst ∨ Stands p ∨ (kind = .pager ∧ p.name = lit "select_page" ∧ p.default = some (lit "None"))

end PySwitch.Properties.Spec
