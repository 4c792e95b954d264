import Verif.Model.Editor

/-!
What a user of the configuration editor relies on, in terms of the source file (a list of
statements) and the tree the editor shows. Only the data types of the model are used here.
-/

namespace PySwitch.Spec.Editor
open PySwitch.Editor

mutual
/-- All parts of a tree which carry the name of a variable, with that name. -/
def named : Data → List (String × Data)
  | .code _ => []
  | .list items => namedIn items
  | .call name args assign => namedIn args ++ (assign.map fun x => (x, .call name args assign)).toList
  | .dict args assign => namedIn args ++ (assign.map fun x => (x, .dict args assign)).toList
  | .val value assign => named value ++ (assign.map fun x => (x, .val value assign)).toList

def namedIn : Entries → List (String × Data)
  | .nil => []
  | .cons _ value rest => named value ++ namedIn rest
end

/-- The variables of a tree. -/
def variables (d : Data) : List String := (named d).map (·.1)

/-- Wherever a variable occurs in the tree, it stands for the same. -/
def Consistent (d : Data) : Prop :=
  ∀ x s t, (x, s) ∈ named d → (x, t) ∈ named d → s = t

/-- A name a dict can have: no quotes and nothing Python would take as an escape. -/
def PlainKey (k : String) : Prop := '"' ∉ k.toList ∧ '\\' ∉ k.toList ∧ '\n' ∉ k.toList

/-- No entry, or a proper name. -/
def PlainAssign (top : String) (a : Option String) : Prop := a ≠ some "" ∧ a ≠ some top

mutual
/-- A tree as the editor shows it, for a file where exactly the names which are not `free` are
variables: names of variables and calls, lists, dicts are not hidden in source code strings,
arguments have names where the editor would give them one, only values which are no dicts are
wrapped, and an empty list is not given to a variable. `top` is the variable of the whole tree. -/
def Shown (argNames : String → List String) (free : String → Prop) (top : String) : Data → Prop
  | .code (.name x) => free x
  | .code (.other _) => True
  | .code _ => False
  | .list items => ShownItems argNames free top items
  | .call name args assign =>
    ShownArgs argNames free top (argNames name).isEmpty args ∧ PlainAssign top assign
  | .dict args assign => ShownElements argNames free top args ∧ PlainAssign top assign
  | .val (.list .nil) _ => False
  | .val (.list items) assign =>
    ShownItems argNames free top items ∧ assign ≠ none ∧ PlainAssign top assign
  | .val (.code (.name x)) assign => free x ∧ assign ≠ none ∧ PlainAssign top assign
  | .val (.code (.other _)) assign => assign ≠ none ∧ PlainAssign top assign
  | .val _ _ => False

def ShownItems (argNames : String → List String) (free : String → Prop) (top : String) :
    Entries → Prop
  | .nil => True
  | .cons name value rest =>
    name = none ∧ Shown argNames free top value ∧ ShownItems argNames free top rest

def ShownArgs (argNames : String → List String) (free : String → Prop) (top : String)
    (unnamed : Bool) : Entries → Prop
  | .nil => True
  | .cons name value rest =>
    name ≠ some "" ∧ (unnamed = true ∨ name ≠ none) ∧ Shown argNames free top value ∧
      ShownArgs argNames free top unnamed rest

def ShownElements (argNames : String → List String) (free : String → Prop) (top : String) :
    Entries → Prop
  | .nil => True
  | .cons name value rest =>
    (∃ k, name = some k ∧ PlainKey k) ∧ Shown argNames free top value ∧
      ShownElements argNames free top rest
end

/-- The tree without the variable it is assigned to as a whole. -/
def content : Data → Data
  | .call name args _ => .call name args none
  | .dict args _ => .dict args none
  | .val value _ => .val value none
  | d => d

/-- The tree with the variable it is assigned to as a whole, where the editor shows it. -/
def titled (top : String) : Data → Data
  | .call name args _ => .call name args (some top)
  | .dict args _ => .dict args (some top)
  | .val value _ => .val value (some top)
  | d => d

/-- The variables a statement sets. -/
def targets : Stmt → List String
  | .assign ts _ => ts
  | _ => []

/-- The file sets the variable. -/
def Sets (body : List Stmt) (x : String) : Prop := ∃ s ∈ body, x ∈ targets s

instance (body : List Stmt) (x : String) : Decidable (Sets body x) :=
  inferInstanceAs (Decidable (∃ s ∈ body, x ∈ targets s))

/-- No statement sets several variables at once. -/
def OneEach (body : List Stmt) : Prop := ∀ s ∈ body, (targets s).length ≤ 1

mutual
/-- An expression the editor can represent: no stars, all keys of dicts in double quotes, and
arguments with names where the editor would give them one. -/
def Plain (argNames : String → List String) : Node → Prop
  | .name _ => True
  | .other _ => True
  | .call func args => PlainArgs argNames (argNames func).isEmpty args
  | .dict elements => PlainElements argNames elements
  | .list items => PlainItems argNames items

def PlainArgs (argNames : String → List String) (unnamed : Bool) : Nodes → Prop
  | .nil => True
  | .cons label node rest =>
    label.star = "" ∧ label.key ≠ some "" ∧ (unnamed = true ∨ label.key ≠ none) ∧
      Plain argNames node ∧ PlainArgs argNames unnamed rest

def PlainElements (argNames : String → List String) : Nodes → Prop
  | .nil => True
  | .cons label node rest =>
    (∃ k, PlainKey k ∧ label = ⟨some ("\"" ++ k ++ "\""), ""⟩) ∧ Plain argNames node ∧
      PlainElements argNames rest

def PlainItems (argNames : String → List String) : Nodes → Prop
  | .nil => True
  | .cons label node rest => label = ⟨none, ""⟩ ∧ Plain argNames node ∧ PlainItems argNames rest
end

/-- A file the editor can represent: all values are plain, no variable is set twice with
different values, no variable is just another name for a variable of the file, and none but `top`
is set to an empty list. -/
structure PlainFile (argNames : String → List String) (top : String) (body : List Stmt) : Prop where
  plain : ∀ ts v, Stmt.assign ts v ∈ body → Plain argNames v
  once : ∀ x ts v ts' v', Stmt.assign ts v ∈ body → Stmt.assign ts' v' ∈ body →
    x ∈ ts → x ∈ ts' → v = v'
  noAlias : ∀ ts y, Stmt.assign ts (.name y) ∈ body → ¬Sets body y
  nonempty : ∀ ts, Stmt.assign ts (.list .nil) ∈ body → ts = [top]

/-- A statement without the value it assigns. -/
def shape : Stmt → Stmt
  | .assign ts _ => .assign ts (.other "")
  | s => s

/-- The statement sets none of the variables. -/
def clearOf (xs : List String) (s : Stmt) : Bool := (targets s).all fun x => !xs.contains x

/-- The statement is no assignment, or it sets a variable which the file has set before. -/
def known (body : List Stmt) (s : Stmt) : Bool :=
  (targets s).isEmpty || (targets s).any fun x => decide (Sets body x)

/-- `*pos, **kw` in source code: arguments without and with keyword, all values being code. -/
def callArgs (pos : List String) (kw : List (String × String)) : Nodes :=
  pos.foldr (fun c r => .cons {} (.other c) r)
    (kw.foldr (fun e r => .cons { key := some e.1 } (.other e.2) r) .nil)

/-! ### Definition before use

`refs` gives the names which occur in a piece of source code. -/

mutual
/-- The names which occur in an expression. -/
def uses (refs : String → List String) : Node → List String
  | .name x => [x]
  | .other c => refs c
  | .call func args => refs func ++ usesIn refs args
  | .dict elements => usesIn refs elements
  | .list items => usesIn refs items

def usesIn (refs : String → List String) : Nodes → List String
  | .nil => []
  | .cons _ node rest => uses refs node ++ usesIn refs rest
end

/-- The names Python looks up when it executes a statement on module level. (The bodies of
functions are executed later.) -/
def stmtUses (refs : String → List String) : Stmt → List String
  | .assign _ v => uses refs v
  | .simple c => refs c
  | _ => []

/-- Every name which is used and which the file sets is set before. -/
def DefinedBeforeUse (refs : String → List String) (body : List Stmt) : Prop :=
  ∀ pre s post, body = pre ++ s :: post → ∀ x ∈ stmtUses refs s, Sets body x → Sets pre x

/-- The variable `y` is set before every statement which sets `x`. -/
def SetBefore (body : List Stmt) (y x : String) : Prop :=
  ∀ pre s post, body = pre ++ s :: post → x ∈ targets s → Sets pre y

mutual
/-- The names a part of the tree needs where it is used: just its variable, if it has one. -/
def needs (refs : String → List String) : Data → List String
  | .code n => uses refs n
  | .list items => needsIn refs items
  | .call _ _ (some x) => [x]
  | .call name args none => refs name ++ needsIn refs args
  | .dict _ (some x) => [x]
  | .dict args none => needsIn refs args
  | .val _ (some x) => [x]
  | .val value none => needs refs value

def needsIn (refs : String → List String) : Entries → List String
  | .nil => []
  | .cons _ value rest => needs refs value ++ needsIn refs rest
end

/-- The new variables of a tree fit into the file, and what is used in it is available there. -/
structure Fits (refs : String → List String) (top : String) (body : List Stmt) (d : Data) : Prop where
  /-- a new variable does not occur in the file already -/
  fresh : ∀ x ∈ variables d, ¬Sets body x → ∀ s ∈ body, x ∉ stmtUses refs s
  /-- a new variable needs what is available at the top variable, or what its own part of the tree
  sets -/
  new : ∀ x s, (x, s) ∈ named d → ¬Sets body x → ∀ y ∈ needs refs (content s),
    (Sets body y → SetBefore body y top) ∧
    (¬Sets body y → y ∈ variables d → y ∈ variables (content s))
  /-- a variable the file has already needs what is available where the file sets it -/
  old : ∀ x s, (x, s) ∈ named d → Sets body x → ∀ y ∈ needs refs (content s),
    Sets body y ∨ y ∈ variables d → SetBefore body y x
  /-- the tree itself needs what is available at the top variable -/
  whole : ∀ y ∈ needs refs d, Sets body y → SetBefore body y top

end PySwitch.Spec.Editor
