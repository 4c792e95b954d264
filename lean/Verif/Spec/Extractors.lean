import Verif.Model.Extractors
/-!
The modules of the library, and what they define.
-/
namespace PySwitch.Extractors.Spec
open PySwitch.Extractors

/-- Parts joined by a separator. -/
def join (sep : Char) : List (List Char) → List Char
  | [] => []
  | [p] => p
  | p :: q :: ps => p ++ sep :: join sep (q :: ps)

mutual
/-- The modules below a folder, as the parts of their names: the files with ending `.py` which do not begin with two underscores, in the order of the table of contents. -/
def modules (at_ : List (List Char)) : Toc → List (List (List Char))
  | .file name => if name.drop (name.length - 3) = ['.', 'p', 'y'] ∧ name.take 2 ≠ ['_', '_'] then [at_ ++ [name.dropLast.dropLast.dropLast]] else []
  | .dir name cs => modulesAll (at_ ++ [name]) cs
def modulesAll (at_ : List (List Char)) : List Toc → List (List (List Char))
  | [] => []
  | c :: cs => modules at_ c ++ modulesAll at_ cs
end

/-- The folder `node` is found in `toc` by the names of the folders on the way. -/
inductive At : Toc → List (List Char) → Toc → Prop where
  | here (t : Toc) : At t [] t
  | step (n : List Char) (before : List Toc) (c : Toc) (after : List Toc) (rest : List (List Char)) (t : Toc)
      (first : ∀ b ∈ before, b.name ≠ c.name) (h : At c rest t) : At (.dir n (before ++ c :: after)) (c.name :: rest) t

mutual
/-- No name in the table of contents contains a slash. -/
def names : Toc → Prop
  | .file n => '/' ∉ n
  | .dir n cs => '/' ∉ n ∧ namesAll cs
def namesAll : List Toc → Prop
  | [] => True
  | c :: cs => names c ∧ namesAll cs
end

/-- A name is public if it does not begin with an underscore. -/
def Public (name : List Char) : Bool := name.head? != some '_'

/-- The text of a comment: without `# `. -/
def text (comment : List Char) : List Char := if comment.take 2 = ['#', ' '] then comment.drop 2 else comment

/-- The text of several comments: one per line. -/
def texts : List (List Char) → Option (List Char)
  | [] => none
  | cs => some (join '\n' (cs.map text))

/-- The descriptor of a function of a module. -/
def describe (module_ : List Char) : Statement → Option FunctionOut
  | .function name leading params _ => some ⟨name, params.map fun p => ⟨p.name, p.default, texts p.comments⟩, texts (leading.filterMap id), module_⟩
  | _ => none

/-- The statement defines a public function. -/
def definesPublic : Statement → Bool
  | .function name _ _ _ => Public name
  | _ => false

mutual
/-- The statement defines no class. -/
def noClass : Statement → Prop
  | .class_ _ _ _ => False
  | .function _ _ _ body => noClassAll body
  | .block body => noClassAll body
  | .other => True
def noClassAll : List Statement → Prop
  | [] => True
  | s :: ss => noClass s ∧ noClassAll ss
end

/-- All classes are public, on module level and derived from names only. -/
def plain : Statement → Prop
  | .class_ name bases body => Public name = true ∧ (∀ b ∈ bases, ∃ n, b = .name n) ∧ noClassAll body
  | s => noClass s

/-- The name of a base. -/
def baseName : Base → Option (List Char)
  | .name n => some n
  | .other => none

/-- The descriptor of a class of a module. -/
def describeClass (module_ : List Char) : Statement → Option ClassOut
  | .class_ name bases _ => some ⟨name, module_, bases.filterMap baseName⟩
  | _ => none

end PySwitch.Extractors.Spec
