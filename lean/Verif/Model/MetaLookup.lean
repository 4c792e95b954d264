/-!
Model of how the functions and parameters of the catalogues get their meta information (`web/htdocs/js/model/parser/Parser.js:506-585`).

Simplified: the contents of definitions (types, ranges, values, …) are of any type `D` for parameters and `F` for functions. The objects which are made of them are left out (`Client.js:40-49`).
-/
namespace PySwitch.MetaLookup

/-- Names of functions, parameters and clients. (`Parser.js:514-541`.) -/
abbrev Name := List Char

/-- The definition of a parameter. (`Parser.js:535-536`.) -/
structure ParameterDef (D : Type) where
  name : Name
  data : D

/-- The definition of a function. (`Parser.js:518-519, 535`.) -/
structure FunctionDef (F D : Type) where
  entityName : Name
  data : F
  parameters : List (ParameterDef D)

/-- The definitions for a client. (`Parser.js:515-518`.) -/
structure ClientDef (F D : Type) where
  client : Name
  entities : List (FunctionDef F D)

/-- The inner loop of `Parser.js:518-522`. -/
def searchEntities {F D : Type} (func : Name) : List (FunctionDef F D) → Option (FunctionDef F D)
  | [] => none
  | e :: es => if e.entityName = func then some e else searchEntities func es

/-- `Parser.js:514-525` `searchFunctionDefinition`. -/
def searchFunctionDefinition {F D : Type} (client func : Name) : List (ClientDef F D) → Option (FunctionDef F D)
  | [] => none
  | c :: cs =>
    if c.client ≠ client then searchFunctionDefinition client func cs
    else match searchEntities func c.entities with
      | some e => some e
      | none => searchFunctionDefinition client func cs

/-- The loop of `Parser.js:535-539`. -/
def searchParameters {D : Type} (param : Name) : List (ParameterDef D) → Option D
  | [] => none
  | p :: ps => if p.name = param then some p.data else searchParameters param ps

/-- `Parser.js:531-542` `searchParameterDefinition`. -/
def searchParameterDefinition {F D : Type} (meta_ : List (ClientDef F D)) (client func param : Name) : Option D :=
  match searchFunctionDefinition client func meta_ with
  | none => none
  | some e => searchParameters param e.parameters

/-- `Parser.js:565-575` `getParameterMeta`. -/
def getParameterMeta {F D : Type} (meta_ : List (ClientDef F D)) (client func param : Name) : Option D :=
  match searchParameterDefinition meta_ client func param with
  | some d => some d
  | none => searchParameterDefinition meta_ client "default".toList param

/-- `Parser.js:547-560` `getFunctionMeta`. -/
def getFunctionMeta {F D : Type} (meta_ : List (ClientDef F D)) (client func : Name) : Option F :=
  (searchFunctionDefinition client func meta_).map (·.data)

/-- A function of the catalogue, with the names of its parameters. (`Parser.js:578-584`.) -/
structure Entry where
  name : Name
  parameters : List Name

/-- A function with its meta information. (`Parser.js:580, 583`.) -/
structure Mixed (F D : Type) where
  name : Name
  info : Option F
  parameters : List (Name × Option D)

/-- `Parser.js:577-585`: the scan. -/
def mixIn {F D : Type} (meta_ : List (ClientDef F D)) (client : Name) (data : List Entry) : List (Mixed F D) :=
  data.map fun e => ⟨e.name, getFunctionMeta meta_ client e.name, e.parameters.map fun p => (p, getParameterMeta meta_ client e.name p)⟩

end PySwitch.MetaLookup
