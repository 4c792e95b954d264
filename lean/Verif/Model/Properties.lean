/-!
Model of the dialog with the properties of an action in the configuration editor (`web/htdocs/js/ui/parser/ActionProperties.js`,
`PagerProperties.js`, `PagesList.js`, `ActionPropertiesInternal.js`, `ActionPropertiesEncoder.js`,
`web/htdocs/js/model/parser/ParameterMeta.js`, `ParameterRange.js`, `web/htdocs/js/misc/Tools.js`).

The inputs of the browser are modelled as HTML and jQuery define them: a line of text has no line breaks, a number input only holds
what is a number, and a selection only holds one of its options (otherwise nothing is selected, and its value is `null`).

Left out: everything which is only shown (comments, messages, rows of advanced parameters, colour inputs), and the order of the
parameters by their `advanced` level. The inputs for `hold`, `assign` and `pager` are apart from those of the parameters (no action
has parameters with these names). Updates which are triggered by changes are done at once.
-/

namespace PySwitch.Properties

/-- Source code or text of an input. (No code of its own.) -/
abbrev Text := List Char

/-- A literal. (No code of its own.) -/
def lit (s : String) : Text := s.toList

/-! ### Parameters -/

/-- `ParameterMeta.js:35-47, 240-251`: the types which are known by name. -/
inductive Ty where
  | bool | int | float | select | selectPage | selectFree | color | text | any | pages
deriving DecidableEq, Repr

/-- `ParameterRange.js`: bounds (resolved) and additional values. -/
structure Range where
  min : Int
  max : Int
  additional : Option (List Text) := none
deriving DecidableEq, Repr

/-- An entry of `web/htdocs/definitions/meta.json` for a parameter (`ParameterMeta.js:4-26`). An empty default counts as none. -/
structure Meta where
  type : Option Ty := none
  default : Option Text := none
  values : Option (List Text) := none
  range : Option Range := none
  unconverted : List Text := []
deriving DecidableEq, Repr

/-- A parameter of an action, `web/htdocs/definitions/actions.json`. `default` is the default in the python code, `none` (null) if the
parameter is required. `listed` are the values which `ParameterMeta.js:66-114` finds by the name of the parameter (displays, encoder
buttons, mappings, key codes). -/
structure Param where
  name : Text
  default : Option Text := none
  md : Meta := {}
  listed : Option (List Text) := none
deriving DecidableEq, Repr

/-- The text of a number. (JavaScript, `"" + n`.) -/
def intText (n : Int) : Text := (toString n).toList

/-- `ParameterMeta.js:213-254` `getDefaultValue`. `none`: an exception. -/
def defaultValue (p : Param) : Option Text :=
  match p.md.default with
  | some (c :: cs) => some (c :: cs)
  | _ =>
    match p.default with
    | some (c :: cs) => some (c :: cs)
    | _ =>
      let number := match p.md.range with
        | some r => if r.min = 0 then lit "0" else intText r.min
        | none => lit "0"
      let select := match p.md.values with
        | none => some []
        | some [] => none
        | some (v :: _) => some v
      match p.md.type with
      | none => some (lit "None")
      | some .int => some number
      | some .float => some number
      | some .select => select
      | some .selectPage => select
      | some .bool => some (lit "False")
      | some .color => some (lit "(0, 0, 0)")
      | some .text => some []
      | some _ => none

/-- White space of JavaScript, as far as it may be in a value. (`ParameterMeta.js:44`, `parseInt`.) -/
def isWhite (c : Char) : Bool := c == ' ' || c == '\t' || c == '\n' || c == '\r'

/-- The value of a digit. (`parseInt`.) -/
def digitOf (base : Nat) (c : Char) : Option Nat :=
  let v := if '0' ≤ c ∧ c ≤ '9' then some (c.toNat - '0'.toNat)
    else if 'a' ≤ c ∧ c ≤ 'f' then some (c.toNat - 'a'.toNat + 10)
    else if 'A' ≤ c ∧ c ≤ 'F' then some (c.toNat - 'A'.toNat + 10)
    else none
  v.bind fun n => if n < base then some n else none

/-- The digits at the beginning of a text. (`parseInt`.) -/
def digits (base : Nat) : Text → List Nat
  | [] => []
  | c :: cs =>
    match digitOf base c with
    | some d => d :: digits base cs
    | none => []

/-- The base and the text after the prefix. (`parseInt`.) -/
def radix : Text → Nat × Text
  | '0' :: 'x' :: rest => (16, rest)
  | '0' :: 'X' :: rest => (16, rest)
  | t => (10, t)

/-- `parseInt` without a sign. Numbers are exact here. -/
def parseNat (t : Text) : Option Nat :=
  match digits (radix t).1 (radix t).2 with
  | [] => none
  | ds => some (ds.foldl (fun n d => n * (radix t).1 + d) 0)

/-- `parseInt` of JavaScript; `none` is `NaN`. -/
def parseInt (t : Text) : Option Int :=
  match t.dropWhile isWhite with
  | '-' :: rest => (parseNat rest).map fun n => -(n : Int)
  | '+' :: rest => (parseNat rest).map fun n => (n : Int)
  | rest => (parseNat rest).map fun n => (n : Int)

/-- `ParameterMeta.js:35-47` `type`. -/
def typeOf (p : Param) : Option Ty :=
  match p.md.type with
  | some t => some t
  | none =>
    match defaultValue p with
    | none => none
    | some d =>
      if d = lit "False" ∨ d = lit "True" then some .bool
      else
        match parseInt d with
        | some n => if n = 0 then none else some .int
        | none => none

/-- `ParameterRange.js:23-52` `getValues`. -/
def rangeValues (r : Range) : Option (List Text) :=
  if r.additional = none ∧ r.max - r.min > 100 then none
  else some (r.additional.getD [] ++ (List.range (r.max + 1 - r.min).toNat).map fun (i : Nat) => intText (r.min + (i : Int)))

/-- `ParameterMeta.js:59-120` `getValues`. -/
def values (p : Param) : Option (List Text) :=
  match p.md.values with
  | some l => some l
  | none =>
    match p.listed with
    | some l => some l
    | none => p.md.range.bind rangeValues

/-! ### Inputs -/

/-- A page of a pager. A missing (or empty) colour or text is `none`. (`PagesList.js:105-129`.) -/
structure Page where
  id : Text
  color : Option Text := none
  text : Option Text := none
deriving DecidableEq, Repr

/-- The value of a parameter or argument. (`ActionProperties.js:596-630`.) -/
inductive Val where
  | code (t : Text)
  | pages (l : List Page)
deriving DecidableEq, Repr

/-- Not empty, and digits only. (HTML.) -/
def isDigits (t : Text) : Bool := t != [] && t.all Char.isDigit

/-- Without a sign. (HTML.) -/
def unsigned (t : Text) : Text := match t with | '-' :: rest => rest | _ => t

/-- A number input holds only what is a floating point number of HTML: sign, digits, fraction, exponent. -/
def isNumber (t : Text) : Bool :=
  let t := unsigned t
  let m := t.takeWhile fun c => c != 'e' && c != 'E'
  let e := t.dropWhile fun c => c != 'e' && c != 'E'
  let whole := m.takeWhile (· != '.')
  let fraction := m.dropWhile (· != '.')
  (match fraction with | [] => isDigits whole | _ :: f => whole.all Char.isDigit && isDigits f) &&
  (match e with
    | [] => true
    | _ :: '-' :: x => isDigits x
    | _ :: '+' :: x => isDigits x
    | _ :: x => isDigits x)

/-- A line of text has no line breaks. (HTML.) -/
def oneLine (t : Text) : Text := t.filter fun c => c != '\n' && c != '\r'

/-- The inputs. (`ActionProperties.js:440-492`.) -/
inductive Input where
  | check (on : Bool)
  | number (t : Text)
  | choice (options : List Text) (selected : Option Text)
  | line (t : Text)
  | pages (l : List Page)
deriving DecidableEq, Repr

/-- `val(v)` of jQuery. -/
def Input.put : Input → Text → Input
  | .number _, v => .number (if isNumber v then v else [])
  | .choice options _, v => .choice options (if v ∈ options then some v else none)
  | .line _, v => .line (oneLine v)
  | i, _ => i

/-- The value of an option in HTML which is put together as text: it ends at the first double quote. (`ActionProperties.js:466, 643`,
`PagerProperties.js:112, 196`. Entities of HTML in the value are left out.) -/
def optionValue (t : Text) : Text := t.takeWhile (· != '"')

/-- `ActionProperties.js:440-492, 635-647` `#createInput`, `#getNumberInput`. `none`: an exception. -/
def fresh (p : Param) : Option Input :=
  match typeOf p with
  | some .pages => some (.pages [])
  | some .selectPage => some (.choice [] none)
  | some .bool => (defaultValue p).map fun d => .check (d == lit "True")
  | some .int =>
    (defaultValue p).map fun d =>
      match values p with
      | some options => Input.put (.choice (options.map optionValue) none) d
      | none => Input.put (.number []) d
  | some .select =>
    (defaultValue p).map fun d =>
      match values p with
      | some options => Input.put (.choice (options.map optionValue) none) d
      | none => Input.put (.line []) d
  | _ => (defaultValue p).map fun d => Input.put (.line []) d

/-- `Tools.js:105-107` `stripQuotes`. -/
def stripQuotes (t : Text) : Text := t.filter fun c => c != '"' && c != '\''

/-- `Tools.js:98-100` `autoQuote`. -/
def autoQuote (t : Text) : Text := '\'' :: (stripQuotes t ++ ['\''])

/-- `ParameterMeta.js:260-279` `convertInput`. -/
def convertInput (p : Param) (v : Text) : Text :=
  if typeOf p = some .text then (if v ∈ p.md.unconverted then v else autoQuote v) else v

/-- What `val()` of jQuery returns. -/
def Input.val : Input → Option Text
  | .number t => some t
  | .line t => some t
  | .choice _ s => s
  | .check _ => none
  | .pages _ => none

/-- `ActionProperties.js:596-608` `#getInputValue`. `none` is null. (`getDefaultValue` throws no exception here: it did not when the input
was created.) -/
def read (p : Param) (i : Input) : Option Val :=
  match i with
  | .check on => some (.code (if on then lit "True" else lit "False"))
  | .pages l => some (.pages l)
  | _ => i.val.map fun v => .code (convertInput p (if v = [] then (defaultValue p).getD [] else v))

/-- `value.replaceAll('"', "'")`. (`ActionProperties.js:627`.) -/
def singleQuotes (t : Text) : Text := t.map fun c => if c = '"' then '\'' else c

/-- An optional entry as it is shown in a line of text and read again: an empty one counts as missing. (`PagesList.js:74-83, 117-125`.) -/
def entered (t : Option Text) : Option Text :=
  match oneLine (t.getD []) with
  | [] => none
  | c :: cs => some (c :: cs)

/-- A page as it is shown in the list and read again. (`PagesList.js:62-129`.) -/
def Page.shown (p : Page) : Page := ⟨oneLine p.id, entered p.color, entered p.text⟩

/-- `ActionProperties.js:613-630` `#setInputValue`. `none`: an exception (the value has the wrong type). -/
def write (i : Input) (v : Val) : Option Input :=
  match i, v with
  | .check _, v => some (.check (v == .code (lit "True")))
  | .pages _, .pages l => some (.pages (l.map Page.shown))
  | .pages _, .code _ => none
  | i, .code t => some (i.put (singleQuotes t))
  | _, .pages _ => none

/-! ### The dialog -/

/-- Which action it is: pagers and proxies of pagers are special. For a proxy the pagers of the configuration are given, with
their pages. (`PagerProperties.js:22, 41, 117, 131`.) -/
inductive Kind where
  | plain
  | pager
  | proxy (pagers : List (Text × List Page))
deriving DecidableEq, Repr

/-- The dialog. `pager` is the selection of the pager of a proxy. (`ActionProperties.js:5-31`.) -/
structure Dialog where
  kind : Kind
  params : List Param
  inputs : Text → Option Input
  assign : Text := []
  hold : Bool := false
  pager : Option Text := none

/-- An input gets a new state. (`Map.set` of JavaScript.) -/
def Dialog.setInput (d : Dialog) (name : Text) (i : Input) : Dialog :=
  { d with inputs := fun n => if n = name then some i else d.inputs n }

/-- The pages of a pager which are edited. (`PagerProperties.js:63-66`: the input of the parameter of type `pages`.) -/
def Dialog.pages (d : Dialog) : Option (List Page) :=
  match d.params.find? fun p => typeOf p = some .pages with
  | none => none
  | some p =>
    match d.inputs p.name with
    | some (.pages l) => some l
    | _ => none

/-- `PagerProperties.js:94-155` `update`: the options for the pages are set, and the selection is set again. -/
def Dialog.update (d : Dialog) : Dialog :=
  match d.kind with
  | .plain => d
  | .pager =>
    match d.pages, d.inputs (lit "select_page") with
    | some l, some (.choice _ s) =>
      let value := match s with | some (c :: cs) => c :: cs | _ => lit "None"
      d.setInput (lit "select_page") (Input.put (.choice ((l.map fun q => optionValue q.id) ++ [lit "None"]) none) value)
    | _, _ => d
  | .proxy pagers =>
    match d.pager with
    | some (c :: cs) =>
      match pagers.find? fun q => q.1 = c :: cs with
      | none => d
      | some q =>
        match d.inputs (lit "page_id") with
        | some (.choice _ s) => d.setInput (lit "page_id") (Input.put (.choice (q.2.map fun q => optionValue q.id) none) (s.getD []))
        | _ => d
    | _ => d

/-- `ActionProperties.js:402-407` `getParameterDefinition`. -/
def Dialog.param (d : Dialog) (name : Text) : Option Param := d.params.find? fun p => p.name = name

/-- `ActionProperties.js:48-73` `get`: an input for each parameter; those with the same names in the dialog which was shown before give
their values, if these are no defaults. `none`: an exception. -/
def inputFor (old : Option Dialog) (p : Param) : Option Input :=
  match fresh p with
  | none => none
  | some i =>
    if typeOf p = some .text then some i
    else
      match old with
      | none => some i
      | some o =>
        match o.param p.name with
        | none => some i
        | some q =>
          match (o.inputs q.name).bind (read q) with
          | none => some i
          | some v => if some v = (defaultValue q).map Val.code then some i else write i v

/-- The inputs of all parameters. (`ActionProperties.js:69-82`.) -/
def inputsFor (old : Option Dialog) : List Param → Option (Text → Option Input)
  | [] => some fun _ => none
  | p :: ps =>
    match inputFor old p, inputsFor old ps with
    | some i, some f => some fun n => if n = p.name then some i else f n
    | _, _ => none

/-- `PagerProperties.js:208-224, ActionPropertiesEncoder.js:19-34`: the first free name of the form `stem`, `stem2`, `stem3`, … (Tries
`fuel` numbers, see the lemma that enough of them are tried.) -/
def freeFrom (stem : Text) (used : List Text) : Nat → Nat → Text
  | 0, cnt => stem ++ intText cnt
  | fuel + 1, cnt => if stem ++ intText cnt ∈ used then freeFrom stem used fuel (cnt + 1) else stem ++ intText cnt

/-- `PagerProperties.js:208-224` `#getNextPagerAssign`, `ActionPropertiesEncoder.js:19-34` `#getNextEncoderAssign`. -/
def nextAssign (stem : Text) (used : List Text) : Text :=
  if stem ∈ used then freeFrom stem used used.length 2 else stem

/-- The pager of a proxy which is selected first: a selection shows its first option. (`PagerProperties.js:190-203`, HTML.) -/
def firstPager : Kind → Option Text
  | .proxy ((name, _) :: _) => some name
  | _ => none

/-- The option for holding is taken over. (`ActionProperties.js:33-47`.) -/
def oldHold : Option Dialog → Bool
  | some o => o.hold
  | none => false

/-- `ParserFrontendInput.js:399-411`, `ActionProperties.js:33-210`: the dialog is shown for an action. `assign` is the name which is
suggested. `none`: an exception. -/
def Dialog.show (kind : Kind) (params : List Param) (old : Option Dialog) (assign : Text) : Option Dialog :=
  match inputsFor old params with
  | none => none
  | some inputs =>
    some (Dialog.update ⟨kind, params, inputs, assign, oldHold old, firstPager kind⟩)

/-- `ActionProperties.js:371-384` `setArgument`. `none`: an exception. -/
def Dialog.setArgument (d : Dialog) (name : Text) (v : Val) : Option Dialog :=
  let d := d.update
  match d.param name with
  | none => none
  | some p =>
    match d.inputs p.name with
    | none => none
    | some i =>
      match write i v with
      | none => none
      | some i' => some (d.setInput p.name i').update

/-- `ActionProperties.js:351-366` `setArguments`. `none`: an exception. -/
def Dialog.setArguments (d : Dialog) : List (Text × Val) → Option Dialog
  | [] => some d.update
  | (name, v) :: rest =>
    match d.setArgument name v with
    | none => none
    | some d => d.setArguments rest

/-- An action in the configuration, with the arguments in the order of the source code. (`ParserFrontendInput.js:379-387`.) -/
structure Action where
  assign : Option Text := none
  hold : Bool := false
  pager : Option Text := none
  args : List (Text × Val) := []
deriving DecidableEq, Repr

/-- `ParserFrontendInput.js:449-471`: the dialog is shown for an action of the configuration. -/
def Dialog.edit (kind : Kind) (params : List Param) (suggested : Text) (a : Action) : Option Dialog :=
  match Dialog.show kind params none suggested with
  | none => none
  | some d =>
    let d : Dialog := { d with hold := a.hold, assign := oneLine (a.assign.getD []) }
    let d : Dialog := match kind, a.pager with
      | .proxy pagers, some x => { d with pager := if x ∈ pagers.map Prod.fst then some x else none }
      | _, _ => d
    d.setArguments a.args

/-- The value of a parameter. (`ActionProperties.js:583-591`; there always is an input.) -/
def Dialog.value (d : Dialog) (p : Param) : Option Val := (d.inputs p.name).bind (read p)

/-- `ActionProperties.js:257-292` `createActionDefinition`: the arguments. -/
def Dialog.arguments (d : Dialog) : List (Text × Option Val) :=
  (d.params.filter fun p => d.value p ≠ p.default.map Val.code).map fun p => (p.name, d.value p)

/-- `ActionProperties.js:257-292` `createActionDefinition`: the pager of a proxy, if one is selected. -/
def Dialog.proxyOf (d : Dialog) : Option Text :=
  match d.kind, d.pager with
  | .proxy _, some (c :: cs) => some (c :: cs)
  | _, _ => none

/-! ### The list of pages -/

/-- `PagesList.js:160-170` `#getNextPageId`. -/
def nextPageId (pages : List Page) : Text :=
  let highest := pages.foldl (fun (h : Int) p => match parseInt p.id with | some n => if n > h then n else h | none => h) (-1)
  if highest < 0 then lit "1" else intText (highest + 1)

/-- The list of pages: what is shown, and for each page the id which its button for removal has kept. (`PagesList.js:62-100`.) -/
structure PageRow where
  page : Page
  kept : Text
deriving DecidableEq, Repr

/-- `PagesList.js:34-57` `set`. -/
def setPages (l : List Page) : List PageRow := l.map fun p => ⟨p.shown, p.id⟩

/-- `PagesList.js:134-146` `#addPage`. -/
def addPage (rows : List PageRow) : List PageRow :=
  let pages := rows.map PageRow.page
  setPages (pages ++ [⟨nextPageId pages, some [], some []⟩])

/-- `PagesList.js:151-155` `#removePage`, with the button of the row `i`. -/
def removePage (rows : List PageRow) (i : Nat) : List PageRow :=
  match rows[i]? with
  | none => rows
  | some r => setPages ((rows.map PageRow.page).filter fun p => p.id ≠ r.kept)

/-- `PagesList.js:70-85`: the id of a page is changed by the user. -/
def renamePage (rows : List PageRow) (i : Nat) (id : Text) : List PageRow :=
  match rows[i]? with
  | none => rows
  | some r => rows.set i { r with page := { r.page with id := oneLine id } }

end PySwitch.Properties
