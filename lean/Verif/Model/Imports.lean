import Verif.Model.Editor

/-!
Model of how the configuration editor's parser maintains the imports of a file when it delivers the
source code (`web/htdocs/python/parser/PySwitchParser.py:38-48`, `to_source`): first everything
which could be needed is imported, then what is not needed is removed again.
-/

namespace PySwitch.Editor

/-- A name which an import statement binds: the index of the statement in the file, the number of
the import inside of it (for compound statements), and the name.
(`web/htdocs/python/parser/misc/RemoveUnusedImportTransformer.py:11-20`.) -/
structure Occ where
  stmt : Nat
  imp : Nat
  bound : String
deriving DecidableEq, Repr

/-- The public variables of a file
(`web/htdocs/python/parser/misc/AssignmentNameExtractor.py:6-25`). -/
def publicAssigns (body : List Stmt) : List String :=
  body.flatMap fun
    | .assign targets _ => targets.filter fun t => !t.startsWith "_"
    | _ => []

/-- What can be imported in `inputs.py`: `available` are the actions and mappings from the
definition files and some more, with module and name
(`web/htdocs/python/parser/PySwitchParser.py:168-185`). -/
def inputsImports (available : List (String × String)) (display : List Stmt) :
    List (String × String) :=
  available ++ (publicAssigns display).map fun x => ("display", x)

/-- `web/htdocs/python/parser/misc/AddImportsTransformer.py:9-20`: the imports are put in front of
the first simple statement line. If the file begins with a compound statement, this is inside of
it. (Compound statements on one line, which have no simple statement line, are not modelled.) -/
def addImports (defs : List (String × String)) : List Stmt → List Stmt
  | [] => []
  | .block imports code :: rest =>
    .block (defs.map (fun d => (d.1, [(d.2, d.2)])) ++ imports) code :: rest
  | s :: rest => defs.map (fun d => .imp d.1 [(d.2, d.2)]) ++ s :: rest

/-- The names bound by the imports of a statement.
(`web/htdocs/python/parser/misc/RemoveUnusedImportTransformer.py:11-20`.) -/
def occOf (i : Nat) : Stmt → List Occ
  | .imp _ names => names.map fun n => ⟨i, 0, n.2⟩
  | .block imports _ => imports.zipIdx.flatMap fun e => e.1.2.map fun n => ⟨i, e.2, n.2⟩
  | _ => []

/-- All names bound by imports in the file, from the statement number `i` on.
(`web/htdocs/python/parser/misc/RemoveUnusedImportTransformer.py:11-20`.) -/
def occurrences : Nat → List Stmt → List Occ
  | _, [] => []
  | i, s :: rest => occOf i s ++ occurrences (i + 1) rest

/-- The names a statement looks up in the scope of the module, according to the library's
`ScopeProvider`: names which are imported inside of a function are found there. `refs` gives the
names occurring in a statement. (Used in `web/htdocs/python/parser/misc/RemoveUnusedImportTransformer.py:11-20`.) -/
def Stmt.globals (refs : Stmt → List String) : Stmt → List String
  | .imp _ _ => []
  | .star _ => []
  | .block imports code =>
    (refs (.block [] code)).filter fun x => !(imports.any fun e => e.2.any fun n => n.2 == x)
  | s => refs s

/-- `len(assignment.references) > 0`
(`web/htdocs/python/parser/misc/RemoveUnusedImportTransformer.py:18`). The library counts every
look-up of a name for all assignments of the name in the scope. -/
def referenced (refs : Stmt → List String) (body : List Stmt) (o : Occ) : Bool :=
  match body[o.stmt]? with
  | some (.block _ code) => (refs (.block [] code)).contains o.bound
  | _ => body.any fun s => (s.globals refs).contains o.bound

/-- `web/htdocs/python/parser/misc/RemoveUnusedImportTransformer.py:11-20`: the names to be
removed. `order` is the order in which the scopes and assignments are visited, both are sets. The
list of names imported so far is the same for all scopes. -/
def unusedImports (referenced : Occ → Bool) : List Occ → List String → List Occ
  | [], _ => []
  | o :: order, imported =>
    if !referenced o || imported.contains o.bound then
      o :: unusedImports referenced order imported
    else unusedImports referenced order (o.bound :: imported)

/-- `web/htdocs/python/parser/misc/RemoveUnusedImportTransformer.py:22-45` for one statement:
`none` is `RemoveFromParent`. -/
def pruneNames (unused : List Occ) (i k : Nat) (names : List (String × String)) :
    Option (List (String × String)) :=
  if names.any fun n => unused.contains ⟨i, k, n.2⟩ then
    let keep := names.filter fun n => !unused.contains ⟨i, k, n.2⟩
    if keep.isEmpty then none else some keep
  else some names

/-- The same for one statement of the file. (`web/htdocs/python/parser/misc/RemoveUnusedImportTransformer.py:22-45`.) -/
def pruneStmt (unused : List Occ) (i : Nat) : Stmt → List Stmt
  | .imp m names => ((pruneNames unused i 0 names).map (Stmt.imp m)).toList
  | .block imports code =>
    [.block (imports.zipIdx.filterMap fun e => (pruneNames unused i e.2 e.1.2).map (e.1.1, ·)) code]
  | s => [s]

/-- The same for a file, from the statement number `i` on.
(`web/htdocs/python/parser/misc/RemoveUnusedImportTransformer.py:22-45`.) -/
def pruneImports (unused : List Occ) : Nat → List Stmt → List Stmt
  | _, [] => []
  | i, s :: rest => pruneStmt unused i s ++ pruneImports unused (i + 1) rest

/-- `web/htdocs/python/parser/PySwitchParser.py:38-48, 149-193`: the file as delivered by
`to_source`, with `defs` being what can be imported. -/
def toSource (refs : Stmt → List String) (defs : List (String × String)) (order : List Occ)
    (body : List Stmt) : List Stmt :=
  let body := addImports defs body
  pruneImports (unusedImports (referenced refs body) order []) 0 body

end PySwitch.Editor
