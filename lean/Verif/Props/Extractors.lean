import Verif.Spec.Extractors
/-!
C201: the functions and classes the editor knows are those the modules of the library define.
-/
namespace PySwitch.Props
open PySwitch.Extractors

namespace C201
open Spec

theorem join_snoc (sep : Char) (ts : List (List Char)) (n : List Char) (h : ts ≠ []) : join sep (ts ++ [n]) = join sep ts ++ sep :: n := by
  induction ts with
  | nil => exact absurd rfl h
  | cons a as ih =>
    cases as with
    | nil => rfl
    | cons b bs =>
      have := ih (by simp)
      simp only [List.cons_append] at this ⊢
      simp only [join]
      rw [this]
      simp

theorem suffix_py (s : List Char) : endsWithPy s = true ↔ s.drop (s.length - 3) = ['.', 'p', 'y'] := by
  unfold endsWithPy
  rw [List.isSuffixOf_iff_suffix, List.suffix_iff_eq_drop]
  constructor <;> intro h <;> exact h.symm

theorem prefix_two (s : List Char) : ['_', '_'].isPrefixOf s = true ↔ s.take 2 = ['_', '_'] := by
  rw [List.isPrefixOf_iff_prefix, List.prefix_iff_eq_take]
  constructor <;> intro h <;> exact h.symm

theorem mem_dropLast (a : Char) (s : List Char) (h : a ∈ s.dropLast) : a ∈ s := (List.dropLast_sublist s).subset h

theorem stem (s : List Char) (h : s.drop (s.length - 3) = ['.', 'p', 'y']) : s = s.dropLast.dropLast.dropLast ++ ['.', 'p', 'y'] := by
  have hs : s = s.take (s.length - 3) ++ ['.', 'p', 'y'] := by rw [← h]; exact (List.take_append_drop _ _).symm
  generalize s.take (s.length - 3) = a at hs
  subst hs
  have : a ++ ['.', 'p', 'y'] = ((a ++ ['.']) ++ ['p']) ++ ['y'] := by simp
  conv => rhs; rw [this, List.dropLast_concat, List.dropLast_concat, List.dropLast_concat]

/-- The path of a module. -/
def path (m : List (List Char)) : List Char := join '/' m ++ ['.', 'p', 'y']

mutual
theorem crawl_eq (ts : List (List Char)) (ht : ts ≠ []) (hj : join '/' ts ≠ []) (t : Toc) :
    crawl (join '/' (ts ++ [t.name])) t = (modules ts t).map path := by
  cases t with
  | file name =>
    have hsc : scanned name = true ↔ (name.drop (name.length - 3) = ['.', 'p', 'y'] ∧ name.take 2 ≠ ['_', '_']) := by
      unfold scanned
      rw [Bool.and_eq_true, suffix_py, Ne, ← prefix_two name, Bool.not_eq_true', Bool.not_eq_true]
    simp only [crawl, modules, Toc.name]
    by_cases h : scanned name = true
    · have hh := hsc.mp h
      rw [if_pos h, if_pos hh]
      simp only [List.map_cons, List.map_nil, path]
      rw [join_snoc _ _ _ ht, join_snoc _ _ _ ht]
      conv => lhs; rw [stem name hh.1]
      simp
    · have hh := fun x => h (hsc.mpr x)
      rw [if_neg h, if_neg hh]; rfl
  | dir name cs =>
    simp only [crawl, modules, Toc.name]
    exact crawlAll_eq (ts ++ [name]) (by simp) (by rw [join_snoc _ _ _ ht]; simp) cs
theorem crawlAll_eq (ts : List (List Char)) (ht : ts ≠ []) (hj : join '/' ts ≠ []) (cs : List Toc) :
    crawlAll (join '/' ts) cs = (modulesAll ts cs).map path := by
  cases cs with
  | nil => rfl
  | cons c cs =>
    simp only [crawlAll, modulesAll, List.map_append]
    rw [← crawl_eq ts ht hj c, ← crawlAll_eq ts ht hj cs, join_snoc _ _ _ ht]
    have : (join '/' ts).isEmpty = false := by cases h : join '/' ts with
      | nil => exact absurd h hj
      | cons a b => rfl
    rw [this]
    simp
end

mutual
theorem modules_names (ts : List (List Char)) (ht : ∀ p ∈ ts, '/' ∉ p) (t : Toc) (h : names t) : ∀ m ∈ modules ts t, ∀ p ∈ m, '/' ∉ p := by
  cases t with
  | file name =>
    intro m hm p hp
    simp only [modules] at hm
    split at hm
    · simp only [List.mem_singleton] at hm
      subst hm
      rw [List.mem_append, List.mem_singleton] at hp
      rcases hp with hp | hp
      · exact ht p hp
      · subst hp
        intro hc
        exact h (mem_dropLast _ _ (mem_dropLast _ _ (mem_dropLast _ _ hc)))
    · simp at hm
  | dir name cs =>
    simp only [modules]
    refine modulesAll_names (ts ++ [name]) ?_ cs h.2
    intro p hp
    rw [List.mem_append, List.mem_singleton] at hp
    rcases hp with hp | hp
    · exact ht p hp
    · subst hp; exact h.1
theorem modulesAll_names (ts : List (List Char)) (ht : ∀ p ∈ ts, '/' ∉ p) (cs : List Toc) (h : namesAll cs) : ∀ m ∈ modulesAll ts cs, ∀ p ∈ m, '/' ∉ p := by
  cases cs with
  | nil => intro m hm; simp [modulesAll] at hm
  | cons c cs =>
    intro m hm
    simp only [modulesAll, List.mem_append] at hm
    rcases hm with hm | hm
    · exact modules_names ts ht c h.1 m hm
    · exact modulesAll_names ts ht cs h.2 m hm
end

theorem replace_none (p : List Char) (h : '/' ∉ p) : replaceSlashes p = p := by
  unfold replaceSlashes
  induction p with
  | nil => rfl
  | cons c cs ih =>
    have hc : c ≠ '/' := fun e => h (by rw [e]; simp)
    rw [List.map_cons, ih (fun x => h (List.mem_cons_of_mem _ x))]
    simp [hc]

theorem replace_append (a b : List Char) : replaceSlashes (a ++ b) = replaceSlashes a ++ replaceSlashes b := List.map_append

theorem replace_join (m : List (List Char)) (h : ∀ p ∈ m, '/' ∉ p) : replaceSlashes (join '/' m) = join '.' m := by
  induction m with
  | nil => rfl
  | cons a as ih =>
    cases as with
    | nil => exact replace_none a (h a (by simp))
    | cons b bs =>
      simp only [join]
      rw [replace_append, replace_none a (h a (by simp))]
      have : replaceSlashes ('/' :: join '/' (b :: bs)) = '.' :: replaceSlashes (join '/' (b :: bs)) := rfl
      rw [this, ih (fun p hp => h p (List.mem_cons_of_mem _ hp))]

theorem removePy_append (a : List Char) : removePy (a ++ ['.', 'p', 'y']) = a := by
  have h : endsWithPy (a ++ ['.', 'p', 'y']) = true := by
    unfold endsWithPy
    rw [List.isSuffixOf_iff_suffix]
    exact List.suffix_append _ _
  unfold removePy
  rw [if_pos h]
  simp

theorem importPath_path (m : List (List Char)) (h : ∀ p ∈ m, '/' ∉ p) : importPath (path m) = join '.' m := by
  unfold importPath path
  rw [replace_append, replace_join m h]
  exact removePy_append _

theorem removeMark_text (c : List Char) : removeMark c = text c := by
  unfold removeMark text
  split
  · simp
  · rename_i h
    rw [if_neg]
    intro e
    match c, e with
    | a :: b :: r, e =>
      simp only [List.take_succ_cons, List.take_zero, List.cons.injEq, and_true] at e
      exact h r (by rw [e.1, e.2])

theorem foldl_some (cs : List (List Char)) (a : List Char) : cs.foldl addComment (some a) = some (join '\n' (a :: cs.map text)) := by
  induction cs generalizing a with
  | nil => rfl
  | cons c cs ih =>
    rw [List.foldl_cons]
    simp only [addComment]
    rw [ih, removeMark_text]
    cases cs with
    | nil => rfl
    | cons d ds => simp [join]

theorem paramComment_eq (cs : List (List Char)) : paramComment cs = texts cs := by
  unfold paramComment
  cases cs with
  | nil => rfl
  | cons c cs =>
    rw [List.foldl_cons]
    simp only [addComment, texts, List.map_cons]
    rw [foldl_some, removeMark_text]

theorem leading_eq (ls : List (Option (List Char))) : leadingComment ls = texts (ls.filterMap id) := by
  rw [← paramComment_eq]
  unfold leadingComment paramComment
  generalize (none : Option (List Char)) = a
  induction ls generalizing a with
  | nil => rfl
  | cons l ls ih =>
    cases l with
    | none => simpa using ih a
    | some c => simpa using ih (addComment a c)

theorem functionsOf_eq (m : List (List Char)) (h : ∀ p ∈ m, '/' ∉ p) (ss : List Statement) :
    functionsOf (path m) ss = (ss.filter definesPublic).filterMap (describe (join '.' m)) := by
  induction ss with
  | nil => rfl
  | cons s ss ih =>
    cases s with
    | function name leading params body =>
      simp only [functionsOf]
      rw [ih]
      by_cases hp : name.head? = some '_'
      · have hb : definesPublic (.function name leading params body) = false := by simp [definesPublic, Public, hp]
        rw [List.filter_cons, hb, if_pos (by simp [hp])]; simp
      · have hb : definesPublic (.function name leading params body) = true := by simp [definesPublic, Public, hp]
        rw [List.filter_cons, hb, if_neg (by simp [hp]), if_pos rfl, List.filterMap_cons]
        simp only [describe]
        rw [importPath_path m h, leading_eq]
        congr 2
        unfold getParams
        congr 1
        funext p
        rw [paramComment_eq]
    | class_ n b body => simpa [functionsOf, definesPublic] using ih
    | block body => simpa [functionsOf, definesPublic] using ih
    | other => simpa [functionsOf, definesPublic] using ih

theorem getFunctions_eq (read : List Char → Option (List Statement)) (source : List (List Char) → List Statement) (ms : List (List (List Char)))
    (hn : ∀ m ∈ ms, ∀ p ∈ m, '/' ∉ p) (hr : ∀ m ∈ ms, read (path m) = some (source m)) :
    getFunctions read (ms.map path) = some (ms.flatMap fun m => ((source m).filter definesPublic).filterMap (describe (join '.' m))) := by
  induction ms with
  | nil => rfl
  | cons m ms ih =>
    simp only [List.map_cons, getFunctions]
    rw [hr m (by simp), ih (fun x hx => hn x (List.mem_cons_of_mem _ hx)) (fun x hx => hr x (List.mem_cons_of_mem _ hx))]
    simp only [List.flatMap_cons]
    rw [functionsOf_eq m (hn m (by simp))]

theorem descend_at (toc t : Toc) (sub : List (List Char)) (h : At toc sub t) : descend toc sub = some t := by
  induction h with
  | here t => rfl
  | step n before c after rest t first h ih =>
    simp only [descend]
    have : getChild (.dir n (before ++ c :: after)) c.name = some c := by
      simp only [getChild, Toc.children]
      rw [List.find?_append]
      have : before.find? (·.name == c.name) = none := by
        rw [List.find?_eq_none]
        intro b hb
        simpa using first b hb
      rw [this]
      simp
    rw [this]
    exact ih

theorem at_descend (toc t : Toc) (sub : List (List Char)) (h : descend toc sub = some t) : At toc sub t := by
  induction sub generalizing toc with
  | nil => simp only [descend, Option.some.injEq] at h; subst h; exact .here _
  | cons s ss ih =>
    simp only [descend] at h
    split at h
    · cases h
    · rename_i c hc
      cases toc with
      | file n => simp [getChild, Toc.children] at hc
      | dir n cs =>
        simp only [getChild, Toc.children] at hc
        rw [List.find?_eq_some_iff_append] at hc
        obtain ⟨he, before, after, hcs, hb⟩ := hc
        have he : c.name = s := by simpa using he
        subst he hcs
        exact .step n before c after ss t (fun b hb' => by simpa using hb b hb') (ih c h)

theorem extends_eq (bs : List Base) (h : ∀ b ∈ bs, ∃ n, b = .name n) :
    extendsOf bs = some (bs.filterMap baseName) := by
  induction bs with
  | nil => rfl
  | cons b bs ih =>
    obtain ⟨n, rfl⟩ := h b (by simp)
    simp only [extendsOf]
    rw [ih (fun x hx => h x (List.mem_cons_of_mem _ hx))]
    rfl

mutual
theorem visit_none (p : List Char) (r : List ClassOut) (s : Statement) (h : noClass s) : visit p r s = some r := by
  cases s with
  | function n l ps body => simp only [visit]; exact visitAll_none p r body h
  | class_ n b body => exact absurd h (by simp [noClass])
  | block body => simp only [visit]; exact visitAll_none p r body h
  | other => rfl
theorem visitAll_none (p : List Char) (r : List ClassOut) (ss : List Statement) (h : noClassAll ss) : visitAll p r ss = some r := by
  cases ss with
  | nil => rfl
  | cons s ss =>
    simp only [visitAll]
    rw [visit_none p r s h.1]
    exact visitAll_none p r ss h.2
end

theorem visitAll_plain (p : List Char) (r : List ClassOut) (ss : List Statement) (h : ∀ s ∈ ss, plain s) :
    visitAll p r ss = some (r ++ ss.filterMap (describeClass p)) := by
  induction ss generalizing r with
  | nil => simp [visitAll]
  | cons s ss ih =>
    have hs := h s (by simp)
    have ih := fun r => ih r (fun x hx => h x (List.mem_cons_of_mem _ hx))
    simp only [visitAll]
    cases s with
    | class_ n b body =>
      have : visit p r (.class_ n b body) = some (r ++ [⟨n, p, b.filterMap baseName⟩]) := by
        simp only [visit]
        rw [extends_eq b hs.2.1]
        exact visitAll_none _ _ _ hs.2.2
      rw [this]
      simp only [ih]
      rw [List.filterMap_cons]
      simp [describeClass]
    | function n l ps body => rw [visit_none p r _ hs]; simp only [ih]; rw [List.filterMap_cons]; rfl
    | block body => rw [visit_none p r _ hs]; simp only [ih]; rw [List.filterMap_cons]; rfl
    | other => rw [visit_none p r _ hs]; simp only [ih]; rw [List.filterMap_cons]; rfl

theorem getClasses_eq (read : List Char → Option (List Statement)) (source : List (List Char) → List Statement) (ms : List (List (List Char)))
    (hn : ∀ m ∈ ms, ∀ p ∈ m, '/' ∉ p) (hr : ∀ m ∈ ms, read (path m) = some (source m)) (hp : ∀ m ∈ ms, ∀ s ∈ source m, plain s) :
    getClasses read (ms.map path) = some (ms.flatMap fun m => (source m).filterMap (describeClass (join '.' m))) := by
  induction ms with
  | nil => rfl
  | cons m ms ih =>
    simp only [List.map_cons, getClasses]
    rw [hr m (by simp), ih (fun x hx => hn x (List.mem_cons_of_mem _ hx)) (fun x hx => hr x (List.mem_cons_of_mem _ hx)) (fun x hx => hp x (List.mem_cons_of_mem _ hx))]
    simp only [List.flatMap_cons]
    rw [importPath_path m (hn m (by simp)), visitAll_plain _ _ _ (hp m (by simp))]
    simp

theorem paths_eq (toc : Toc) (sub ts : List (List Char)) (n : List Char) (cs : List Toc) (ht : ts ≠ []) (hj : join '/' ts ≠ [])
    (hat : At toc sub (.dir n cs)) : importPaths toc sub (join '/' ts) = (modulesAll ts cs).map path := by
  unfold importPaths
  rw [descend_at _ _ _ hat]
  simp only [crawl]
  exact crawlAll_eq ts ht hj cs

/-- A small library: `actions/local.py`, `actions/__init__.py`, `actions/sub/morph.py` and a picture. -/
def lib : Toc := .dir "pyswitch".toList [.dir "actions".toList
  [.file "local.py".toList, .file "__init__.py".toList, .dir "sub".toList [.file "morph.py".toList], .file "a.png".toList]]

/-- A module with a public function, a private one and one in an `if` block. -/
def src : List Statement := [.function "TAP".toList [some "# Tap".toList, none, some "#tempo".toList] [⟨"id".toList, some "None".toList, ["# ID".toList]⟩] [.other],
  .function "_help".toList [] [] [.other], .block [.function "INNER".toList [] [] []], .other]

end C201
open C201

/-- C201: the functions the editor knows of a folder of the library are exactly the public functions on module level of its modules, in the order of the table of contents and of the sources, each with its name, its parameters with their defaults and comments, the comment above it, and the name of the module for the import. -/
theorem C201_functions (read : List Char → Option (List Statement)) (source : List (List Char) → List Statement) (toc : Toc) (sub target : List (List Char)) (name : List Char) (folder : List Toc)
    (found : Spec.At toc sub (.dir name folder)) (noSlash : Spec.namesAll folder) (targetParts : ∀ p ∈ target, '/' ∉ p) (targetGiven : target ≠ []) (targetText : Spec.join '/' target ≠ [])
    (sources : ∀ m ∈ Spec.modulesAll target folder, read (Spec.join '/' m ++ ".py".toList) = some (source m)) :
    extractFunctions read toc sub (Spec.join '/' target)
      = some ((Spec.modulesAll target folder).flatMap fun m => ((source m).filter Spec.definesPublic).filterMap (Spec.describe (Spec.join '.' m))) := by
  unfold extractFunctions
  rw [paths_eq toc sub target name folder targetGiven targetText found]
  exact getFunctions_eq read source _ (modulesAll_names target targetParts folder noSlash) sources

example : extractFunctions (fun _ => some src) lib ["actions".toList] "pyswitch/actions".toList
    = some [⟨"TAP".toList, [⟨"id".toList, some "None".toList, some "ID".toList⟩], some "Tap\n#tempo".toList, "pyswitch.actions.local".toList⟩,
      ⟨"TAP".toList, [⟨"id".toList, some "None".toList, some "ID".toList⟩], some "Tap\n#tempo".toList, "pyswitch.actions.sub.morph".toList⟩] := by decide +kernel

example : ∃ name folder, Spec.At lib ["actions".toList] (.dir name folder) ∧ Spec.namesAll folder ∧ (Spec.modulesAll ["pyswitch".toList, "actions".toList] folder).length = 2 :=
  ⟨_, _, .step _ [] (.dir "actions".toList _) [] _ _ (by simp) (.here _), ⟨by simp [Spec.names], by simp [Spec.names], by simp [Spec.names, Spec.namesAll], by simp [Spec.names], trivial⟩, by decide⟩

/-- C201: if a module of the folder cannot be read, the extraction fails as a whole: the editor never works with a part of the library. -/
theorem C201_unreadable (read : List Char → Option (List Statement)) (toc : Toc) (sub target : List (List Char)) (name : List Char) (folder : List Toc)
    (found : Spec.At toc sub (.dir name folder)) (targetGiven : target ≠ []) (targetText : Spec.join '/' target ≠ [])
    (m : List (List Char)) (mem : m ∈ Spec.modulesAll target folder) (unreadable : read (Spec.join '/' m ++ ".py".toList) = none) :
    extractFunctions read toc sub (Spec.join '/' target) = none := by
  unfold extractFunctions
  rw [paths_eq toc sub target name folder targetGiven targetText found]
  generalize Spec.modulesAll target folder = ms at mem
  induction ms with
  | nil => simp at mem
  | cons x ms ih =>
    simp only [List.map_cons, getFunctions]
    cases hx : read (path x) with
    | none => rfl
    | some cst =>
      rcases List.mem_cons.1 mem with rfl | h
      · rw [show read (path m) = none from unreadable] at hx; simp at hx
      · rw [ih h]

example : extractFunctions (fun p => if p = "pyswitch/actions/local.py".toList then some src else none) lib ["actions".toList] "pyswitch/actions".toList = none := by decide +kernel

/-- C201: of a folder which does not exist, there are no functions and no classes. -/
theorem C201_missing (read : List Char → Option (List Statement)) (toc : Toc) (sub : List (List Char)) (target : List Char) (missing : ∀ t, ¬ Spec.At toc sub t) :
    extractFunctions read toc sub target = some [] ∧ extractClasses read toc sub target = some [] := by
  have : descend toc sub = none := by
    cases h : descend toc sub with
    | none => rfl
    | some t => exact absurd (at_descend toc t sub h) (missing t)
  unfold extractFunctions extractClasses importPaths
  rw [this]
  exact ⟨rfl, rfl⟩

example : descend lib ["mappings".toList] = none := by decide +kernel

/-- C201: each module is examined under its path, and nothing else is read. -/
theorem C201_files (toc : Toc) (sub target : List (List Char)) (name : List Char) (folder : List Toc)
    (found : Spec.At toc sub (.dir name folder)) (targetGiven : target ≠ []) (targetText : Spec.join '/' target ≠ []) :
    importPaths toc sub (Spec.join '/' target) = (Spec.modulesAll target folder).map fun m => Spec.join '/' m ++ ".py".toList :=
  paths_eq toc sub target name folder targetGiven targetText found

/-- C201, partial: if all classes of the modules are public, on module level and derived from names, the classes the editor knows are exactly those, each with its module and its bases. Missing: for other sources, see the witnesses. -/
theorem C201_classes_partial (read : List Char → Option (List Statement)) (source : List (List Char) → List Statement) (toc : Toc) (sub target : List (List Char)) (name : List Char) (folder : List Toc)
    (found : Spec.At toc sub (.dir name folder)) (noSlash : Spec.namesAll folder) (targetParts : ∀ p ∈ target, '/' ∉ p) (targetGiven : target ≠ []) (targetText : Spec.join '/' target ≠ [])
    (sources : ∀ m ∈ Spec.modulesAll target folder, read (Spec.join '/' m ++ ".py".toList) = some (source m))
    (plain : ∀ m ∈ Spec.modulesAll target folder, ∀ s ∈ source m, Spec.plain s) :
    extractClasses read toc sub (Spec.join '/' target)
      = some ((Spec.modulesAll target folder).flatMap fun m => (source m).filterMap (Spec.describeClass (Spec.join '.' m))) := by
  unfold extractClasses
  rw [paths_eq toc sub target name folder targetGiven targetText found]
  exact getClasses_eq read source _ (modulesAll_names target targetParts folder noSlash) sources plain

example : ∀ s ∈ [Statement.class_ "Colors".toList [.name "Base".toList] [.other], .function "F".toList [] [] [.other]], Spec.plain s := by
  intro s hs
  simp only [List.mem_cons, List.not_mem_nil, or_false] at hs
  rcases hs with rfl | rfl
  · exact ⟨by decide, fun b hb => ⟨_, List.mem_singleton.mp hb⟩, trivial, trivial⟩
  · exact ⟨trivial, trivial⟩

example : extractClasses (fun _ => some [.class_ "Colors".toList [.name "Base".toList] [.other], .function "F".toList [] [] [.other]]) lib ["actions".toList, "sub".toList] "sub".toList
    = some [⟨"Colors".toList, "sub.morph".toList, ["Base".toList]⟩] := by decide +kernel

/-- C201: the list of "all public classes defined on module level" also has private classes, and classes inside of others or of functions, which cannot be imported. -/
theorem C201_private_witness : getClasses (fun _ => some [.class_ "_Inner".toList [] [], .function "F".toList [] [] [.class_ "Local".toList [] []]]) ["a/b.py".toList]
    = some [⟨"_Inner".toList, "a.b".toList, []⟩, ⟨"Local".toList, "a.b".toList, []⟩] := by decide +kernel

/-- C201: one class derived from something other than a name, for example `module.Base`, makes the list of all classes unavailable. -/
theorem C201_base_witness (read : List Char → Option (List Statement)) (before after : List (List Char)) (path name : List Char) (bases : List Base) (body rest : List Statement)
    (h : read path = some (.class_ name (.other :: bases) body :: rest)) : getClasses read (before ++ path :: after) = none := by
  induction before with
  | nil => simp [getClasses, h, visitAll, visit, extendsOf]
  | cons b bs ih =>
    simp only [List.cons_append, getClasses, ih]
    split
    · rfl
    · split <;> rfl

end PySwitch.Props
