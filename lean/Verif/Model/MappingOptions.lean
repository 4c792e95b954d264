/-!
Model of the list of mappings the editor offers for parameters which are mappings (`web/htdocs/js/model/parser/MappingOptions.js:1-62`).

Simplified: names and values are texts, compared by their characters (JavaScript compares UTF-16 units). The name of an option is equal to its value and left out. The sort of JavaScript is an
insertion sort here: options with equal names are equal, so all sorts give the same list. `none` is the error for parameters without values.
-/
namespace PySwitch.MappingOptions

/-- The values of the first parameter: those of the range, those of the meta data, or none. (`MappingOptions.js:32-41`.) -/
structure Parameter where
  name : List Char
  range : Option (List (List Char))
  values : Option (List (List Char))

/-- A mapping of a client. (`MappingOptions.js:7-18`.) -/
structure Mapping where
  name : List Char
  parameters : List Parameter

/-- `MappingOptions.js:20-29` `addValues`. -/
def addValues (m : Mapping) (p : Parameter) (values : List (List Char)) : List (List Char) :=
  values.map fun v => m.name ++ "(".toList ++ (if m.parameters.length > 1 then p.name ++ " = ".toList else []) ++ v ++ ")".toList

/-- `MappingOptions.js:7-43` `getMappingVariants`. -/
def getMappingVariants (m : Mapping) : Option (List (List Char)) :=
  match m.parameters with
  | [] => some [m.name ++ "()".toList]
  | p :: _ =>
    match p.range with
    | some vs => some (addValues m p vs)
    | none =>
      match p.values with
      | some vs => some (addValues m p vs)
      | none => none

/-- `a.name > b.name`. (`MappingOptions.js:60`.) -/
def greater : List Char → List Char → Bool
  | [], _ => false
  | _ :: _, [] => true
  | a :: as, b :: bs => if a = b then greater as bs else b.toNat < a.toNat

/-- Inserts an option before the first one which is not less. (`MappingOptions.js:60`.) -/
def insert (x : List Char) : List (List Char) → List (List Char)
  | [] => [x]
  | y :: ys => if greater x y then y :: insert x ys else x :: y :: ys

/-- `MappingOptions.js:60`: the sort. -/
def sort : List (List Char) → List (List Char)
  | [] => []
  | x :: xs => insert x (sort xs)

/-- The loop of `MappingOptions.js:54-58`. -/
def collect : List Mapping → List (List Char) → Option (List (List Char))
  | [], ret => some ret
  | m :: ms, ret =>
    match getMappingVariants m with
    | none => none
    | some vs => collect ms (ret ++ vs)

/-- `MappingOptions.js:6-61` `generate`, for the mappings of all clients (line 45). -/
def generate (clients : List (List Mapping)) (addNone : Bool) : Option (List (List Char)) :=
  (collect clients.flatten (if addNone then ["None".toList] else [])).map sort

end PySwitch.MappingOptions
