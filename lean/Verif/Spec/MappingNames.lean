import Verif.Model.MappingNames
/-!
Calls which give the parameter of an action, and readable names.
-/
namespace PySwitch.MappingNames.Spec
open PySwitch.MappingNames
open PySwitch.Properties (Text lit)

/-- The characters of names of mappings in the library: capital letters, digits and underscores. -/
def nameChars : List Char := ['A', 'B', 'C', 'D', 'E', 'F', 'G', 'H', 'I', 'J', 'K', 'L', 'M', 'N', 'O', 'P', 'Q', 'R', 'S', 'T', 'U', 'V', 'W', 'X', 'Y', 'Z',
  '0', '1', '2', '3', '4', '5', '6', '7', '8', '9', '_']

/-- A name of a mapping, after the prefix. It does not contain the prefix `MAPPING_` once more. -/
def Name (n : Text) : Prop := (∀ c ∈ n, c ∈ nameChars) ∧ ¬ lit "MAPPING_" <:+: n

/-- The source code `MAPPING_X(args)` or `KemperMappings.X(args)` of the mapping X. -/
inductive Calls : Text → Text → Prop where
  | function (name args : Text) : Calls (lit "MAPPING_" ++ name ++ '(' :: (args ++ [')'])) name
  | method (name args : Text) : Calls (lit "KemperMappings." ++ name ++ '(' :: (args ++ [')'])) name

/-- The shown text is a name: read in capital letters, with underscores in place of the blanks, it is the name of the mapping. -/
def Reads (shown name : Text) : Prop := shown.map (fun c => if c = ' ' then '_' else c.toUpper) = name

/-- The text is written in words: at the beginning, and after a blank, there is no small letter, and everywhere else there is no capital letter. -/
def Words (shown : Text) : Prop := ∀ (i : Nat) (c : Char), shown[i]? = some c → if i = 0 ∨ shown[i - 1]? = some ' ' then c.isLower = false else c.isUpper = false

end PySwitch.MappingNames.Spec
