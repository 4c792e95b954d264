import Verif.Spec.Examples
import Verif.Props.Links
/-!
C182: The trees of examples and templates offer exactly the examples and templates. C183: They have no dead ends.
-/
namespace PySwitch.Props
open PySwitch.Examples PySwitch.Examples.Spec

namespace C182

theorem crawl_value (skip : Text → Bool) (pre : Text) (x : Node) : (crawl skip pre x).value = x.name := by
  cases x with
  | file n => simp only [crawl, Item.value, Node.name]
  | dir n cs => simp only [crawl]; split <;> rfl

theorem mem_crawlAll (skip : Text → Bool) (pre : Text) (cs : List Node) (e : Item) :
    e ∈ crawlAll skip pre cs ↔ ∃ c ∈ cs, skip c.name = false ∧ e = crawl skip pre c := by
  induction cs with
  | nil => simp [crawlAll]
  | cons c cs ih =>
    rw [crawlAll]
    split
    · rename_i h
      rw [ih]
      constructor
      · rintro ⟨d, hd, h1, h2⟩; exact ⟨d, List.mem_cons_of_mem _ hd, h1, h2⟩
      · rintro ⟨d, hd, h1, h2⟩
        rcases List.mem_cons.mp hd with rfl | hd
        · rw [h] at h1; cases h1
        · exact ⟨d, hd, h1, h2⟩
    · rename_i h
      rw [List.mem_cons, ih]
      constructor
      · rintro (rfl | ⟨d, hd, h1, h2⟩)
        · exact ⟨c, List.mem_cons_self, by simpa using h, rfl⟩
        · exact ⟨d, List.mem_cons_of_mem _ hd, h1, h2⟩
      · rintro ⟨d, hd, h1, h2⟩
        rcases List.mem_cons.mp hd with rfl | hd
        · exact .inl h2
        · exact .inr ⟨d, hd, h1, h2⟩

theorem no_dirs (cs : List Node) : (cs.filter Node.isDir).length = 0 ↔ ∀ c ∈ cs, c.isDir = false := by
  rw [List.length_eq_zero_iff, List.filter_eq_nil_iff]
  exact ⟨fun h c hc => by simpa using h c hc, fun h c hc => by simp [h c hc]⟩

theorem crawl_leaf (skip : Text → Bool) (pre n : Text) (cs : List Node) (h : ∀ c ∈ cs, c.isDir = false) :
    crawl skip pre (.dir n cs) = .mk n (some (.folder (pre ++ n))) [] := by
  rw [crawl, if_pos ((no_dirs cs).mpr h)]

theorem crawl_inner (skip : Text → Bool) (pre n : Text) (cs : List Node) (h : ¬ ∀ c ∈ cs, c.isDir = false) :
    crawl skip pre (.dir n cs) = .mk n none (crawlAll skip (pre ++ n ++ ['/']) cs) := by
  rw [crawl, if_neg (fun e => h ((no_dirs cs).mp e))]

/-- There is a folder without subfolders at this path below a folder. -/
def Leaf (skip : Text → Bool) (x : Node) (p : List Text) : Prop := ∃ n cs, Reach skip x p (.dir n cs) ∧ ∀ c ∈ cs, c.isDir = false

theorem path_cons (a n : Text) (p : List Text) : a ++ ['/'] ++ n ++ pathText p = a ++ pathText (n :: p) := by
  simp [pathText]

theorem shown_nil {e x : Item} (h : Shown e [] x) : x = e := by cases h; rfl

/-- What is found in the tree made of a folder. -/
theorem crawl_shown (skip : Text → Bool) (p : List Text) : ∀ (x : Node) (pre : Text) (k : Choice),
    (∃ e, Shown (crawl skip pre x) p e ∧ e.onSelect = some k) ↔ (Leaf skip x p ∧ k = .folder (pre ++ x.name ++ pathText p)) := by
  induction p with
  | nil =>
    intro x pre k
    have hp : pre ++ x.name ++ pathText [] = pre ++ x.name := by simp [pathText]
    rw [hp]
    constructor
    · rintro ⟨e, he, hk⟩
      rw [shown_nil he] at hk
      cases x with
      | file n => rw [crawl] at hk; cases hk
      | dir n cs =>
        by_cases h : ∀ c ∈ cs, c.isDir = false
        · rw [crawl_leaf skip pre n cs h] at hk
          exact ⟨⟨n, cs, .here _, h⟩, (Option.some.inj hk).symm⟩
        · rw [crawl_inner skip pre n cs h] at hk; cases hk
    · rintro ⟨⟨n, cs, hr, h⟩, rfl⟩
      cases hr
      exact ⟨_, .here _, by rw [crawl_leaf skip pre n cs h]; rfl⟩
  | cons a p ih =>
    intro x pre k
    constructor
    · rintro ⟨e, he, hk⟩
      cases x with
      | file n =>
        rw [crawl] at he
        cases he with
        | child _ c _ _ hc _ => cases hc
      | dir n cs =>
        by_cases h : ∀ c ∈ cs, c.isDir = false
        · rw [crawl_leaf skip pre n cs h] at he
          cases he with
          | child _ c _ _ hc _ => cases hc
        · rw [crawl_inner skip pre n cs h] at he
          cases he with
          | child _ c _ _ hc hx =>
            obtain ⟨d, hd, hs, rfl⟩ := (mem_crawlAll _ _ _ _).mp hc
            obtain ⟨⟨m, ms, hr, hl⟩, rfl⟩ := (ih d _ k).mp ⟨e, hx, hk⟩
            rw [crawl_value]
            refine ⟨⟨m, ms, .child n cs d p _ hd hs hr, hl⟩, ?_⟩
            rw [path_cons]; rfl
    · rintro ⟨⟨m, ms, hr, hl⟩, rfl⟩
      cases hr with
      | child n cs c _ _ hc hs h =>
        have hd : ¬ ∀ c ∈ cs, c.isDir = false := by
          intro hall
          have hcd := hall c hc
          cases c with
          | dir _ _ => cases hcd
          | file _ => cases h
        obtain ⟨e, he, hk⟩ := (ih c (pre ++ n ++ ['/']) _).mpr ⟨⟨m, ms, h, hl⟩, rfl⟩
        rw [crawl_inner skip pre n cs hd]
        refine ⟨e, ?_, ?_⟩
        · have := Shown.child (.mk n none (crawlAll skip (pre ++ n ++ ['/']) cs)) (crawl skip (pre ++ n ++ ['/']) c) p e
            ((mem_crawlAll _ _ _ _).mpr ⟨c, hc, hs, rfl⟩) he
          rwa [crawl_value] at this
        · rw [hk, path_cons]; rfl

theorem crawlAll_values (skip : Text → Bool) (pre : Text) (cs : List Node) :
    (crawlAll skip pre cs).map Item.value = (cs.map Node.name).filter fun n => !skip n := by
  induction cs with
  | nil => rfl
  | cons c cs ih =>
    rw [crawlAll]
    split
    · rename_i h; rw [ih]; simp [h]
    · rename_i h; simp only [List.map_cons, ih, crawl_value]; simp [h]

/-- The entries below each other have different names. -/
theorem crawl_distinct (skip : Text → Bool) (p : List Text) : ∀ (x : Node) (pre : Text) (e : Item), Distinct x → Shown (crawl skip pre x) p e →
    (e.children.map Item.value).Nodup := by
  induction p with
  | nil =>
    intro x pre e hx he
    rw [shown_nil he]
    cases hx with
    | file n => rw [crawl]; exact List.nodup_nil
    | dir n cs h hc =>
      rw [crawl]
      split
      · exact List.nodup_nil
      · show ((crawlAll skip _ cs).map Item.value).Nodup
        rw [crawlAll_values]
        exact h.filter _
  | cons a p ih =>
    intro x pre e hx he
    cases hx with
    | file n => rw [crawl] at he; cases he with | child _ c _ _ hc _ => cases hc
    | dir n cs h hcs =>
      rw [crawl] at he
      split at he
      · cases he with | child _ c _ _ hc _ => cases hc
      · cases he with
        | child _ c _ _ hc hx =>
          obtain ⟨d, hd, hs, rfl⟩ := (mem_crawlAll _ _ _ _).mp hc
          exact ih d _ e (hcs d hd) hx

/-- The tree of examples is the crawled one with one more entry at its top. -/
theorem examples_eq (children : List Node) : ∃ s cs, crawl skipped [] (toc children) = .mk [] s cs ∧
    examples children = .mk [] s (.mk "PySwitch Default".toList (some .default) [] :: cs) := by
  have hv := crawl_value skipped [] (toc children)
  rw [examples]
  cases hc : crawl skipped [] (toc children) with
  | mk v s cs =>
    rw [hc] at hv
    have : v = [] := hv
    subst this
    exact ⟨s, cs, rfl, rfl⟩

theorem shown_examples {children : List Node} {p : List Text} {e : Item} (h : Shown (examples children) p e) (hp : p ≠ []) :
    Shown (crawl skipped [] (toc children)) p e ∨ (p = ["PySwitch Default".toList] ∧ e = .mk "PySwitch Default".toList (some .default) []) := by
  obtain ⟨s, cs, h1, h2⟩ := examples_eq children
  rw [h2] at h
  rw [h1]
  cases h with
  | here => exact absurd rfl hp
  | child _ c p _ hc hx =>
    rcases List.mem_cons.mp hc with rfl | hc
    · cases hx with
      | here => exact .inr ⟨rfl, rfl⟩
      | child _ d _ _ hd _ => cases hd
    · exact .inl (.child _ c p _ hc hx)

theorem shown_crawled {children : List Node} {p : List Text} {e : Item} (h : Shown (crawl skipped [] (toc children)) p e) (hp : p ≠ []) :
    Shown (examples children) p e := by
  obtain ⟨s, cs, h1, h2⟩ := examples_eq children
  rw [h1] at h
  rw [h2]
  cases h with
  | here => exact absurd rfl hp
  | child _ c p _ hc hx => exact .child _ c p _ (List.mem_cons_of_mem _ hc) hx

end C182

/-- In the tree of examples, by choosing some names one after another the user gets to an entry which opens a folder exactly if there is an example at this path, and the folder which
it opens is this one. -/
theorem C182_examples (children : List Node) (p : List Text) (k : Text) :
    (∃ e, Shown (examples children) p e ∧ e.onSelect = some (.folder k)) ↔ (IsExample skipped children p ∧ k = pathText p) := by
  have hc := C182.crawl_shown skipped p (toc children) [] (.folder k)
  have hk : (Choice.folder k = .folder ([] ++ (toc children).name ++ pathText p)) ↔ k = pathText p := by
    simp [toc, Node.name]
  rw [hk] at hc
  refine Iff.trans ?_ hc
  by_cases hp : p = []
  · subst hp
    obtain ⟨s, cs, h1, h2⟩ := C182.examples_eq children
    rw [h1, h2]
    constructor
    · rintro ⟨e, he, hs⟩; rw [C182.shown_nil he] at hs; exact ⟨_, .here _, hs⟩
    · rintro ⟨e, he, hs⟩; rw [C182.shown_nil he] at hs; exact ⟨_, .here _, hs⟩
  · constructor
    · rintro ⟨e, he, hs⟩
      rcases C182.shown_examples he hp with h | ⟨_, rfl⟩
      · exact ⟨e, h, hs⟩
      · cases hs
    · rintro ⟨e, he, hs⟩
      exact ⟨e, C182.shown_crawled he hp, hs⟩

namespace C182

theorem includes_iff (pat : Text) : ∀ s : Text, includes pat s = true ↔ pat <:+: s
  | [] => by
    rw [includes, List.isPrefixOf_iff_prefix]
    simp
  | c :: s => by
    rw [includes, Bool.or_eq_true, includes_iff pat s, List.infix_cons_iff, List.isPrefixOf_iff_prefix]

theorem reach_skip (skip : Text → Bool) (p : List Text) : ∀ x y : Node, Reach skip x p y ↔ Reach (fun _ => false) x p y ∧ ∀ n ∈ p, skip n = false := by
  induction p with
  | nil =>
    intro x y
    constructor
    · intro h; cases h; exact ⟨.here _, by simp⟩
    · rintro ⟨h, _⟩; cases h; exact .here _
  | cons a p ih =>
    intro x y
    constructor
    · intro h
      cases h with
      | child n cs c _ _ hc hs h =>
        obtain ⟨h1, h2⟩ := (ih _ _).mp h
        refine ⟨.child n cs c p y hc rfl h1, ?_⟩
        intro m hm
        rcases List.mem_cons.mp hm with rfl | hm
        · exact hs
        · exact h2 m hm
    · rintro ⟨h, hs⟩
      cases h with
      | child n cs c _ _ hc _ h =>
        exact .child n cs c p y hc (hs _ (List.mem_cons_self ..)) ((ih _ _).mpr ⟨h, fun m hm => hs m (List.mem_cons_of_mem _ hm)⟩)

end C182

/-- Nothing is left out but what is not made for the editor: the examples which are offered are all the ones on the server for which no part of the path contains one of the two texts. -/
theorem C182_left_out (children : List Node) (p : List Text) :
    (∃ e k, Shown (examples children) p e ∧ e.onSelect = some (.folder k)) ↔
      (IsExample (fun _ => false) children p ∧ ∀ n ∈ p, ¬ "MIDI Routings".toList <:+: n ∧ ¬ "Multiboot".toList <:+: n) := by
  have hs : ∀ n, skipped n = false ↔ ¬ "MIDI Routings".toList <:+: n ∧ ¬ "Multiboot".toList <:+: n := by
    intro n
    rw [skipped, Bool.or_eq_false_iff, ← Bool.not_eq_true, ← Bool.not_eq_true, C182.includes_iff, C182.includes_iff]
  have hx : IsExample skipped children p ↔ (IsExample (fun _ => false) children p ∧ ∀ n ∈ p, skipped n = false) := by
    constructor
    · rintro ⟨n, cs, h, hc⟩
      obtain ⟨h1, h2⟩ := (C182.reach_skip _ _ _ _).mp h
      exact ⟨⟨n, cs, h1, hc⟩, h2⟩
    · rintro ⟨⟨n, cs, h, hc⟩, h2⟩
      exact ⟨n, cs, (C182.reach_skip _ _ _ _).mpr ⟨h, h2⟩, hc⟩
  constructor
  · rintro ⟨e, k, h1, h2⟩
    obtain ⟨h3, h4⟩ := hx.mp ((C182_examples children p k).mp ⟨e, h1, h2⟩).1
    exact ⟨h3, fun n hn => (hs n).mp (h4 n hn)⟩
  · rintro ⟨h1, h2⟩
    obtain ⟨e, h3, h4⟩ := (C182_examples children p (pathText p)).mpr ⟨hx.mpr ⟨h1, fun n hn => (hs n).mpr (h2 n hn)⟩, rfl⟩
    exact ⟨e, _, h3, h4⟩

/-- The same for the templates, of which none is left out. -/
theorem C182_templates (children : List Node) (p : List Text) (k : Choice) :
    (∃ e, Shown (templates children) p e ∧ e.onSelect = some k) ↔ (IsExample (fun _ => false) children p ∧ k = .folder (pathText p)) := by
  have hc := C182.crawl_shown (fun _ => false) p (toc children) [] k
  have hk : [] ++ (toc children).name ++ pathText p = pathText p := by simp [toc, Node.name]
  rw [hk] at hc
  exact hc

/-- The default configuration is offered at the top of the tree of examples, and nowhere else. -/
theorem C182_default (children : List Node) (p : List Text) :
    (∃ e, Shown (examples children) p e ∧ e.onSelect = some .default) ↔ p = ["PySwitch Default".toList] := by
  constructor
  · rintro ⟨e, he, hs⟩
    by_cases hp : p = []
    · subst hp
      obtain ⟨s, cs, h1, h2⟩ := C182.examples_eq children
      rw [C182.shown_nil he, h2] at hs
      have := (C182.crawl_shown skipped [] (toc children) [] .default).mp ⟨_, .here _, by rw [h1]; exact hs⟩
      exact absurd this.2 (by simp)
    · rcases C182.shown_examples he hp with h | ⟨h, _⟩
      · have := (C182.crawl_shown skipped p (toc children) [] .default).mp ⟨_, h, hs⟩
        exact absurd this.2 (by simp)
      · exact h
  · rintro rfl
    obtain ⟨s, cs, _, h2⟩ := C182.examples_eq children
    rw [h2]
    exact ⟨_, .child _ (.mk "PySwitch Default".toList (some .default) []) _ _ List.mem_cons_self (.here _), rfl⟩

/-- The entries of a folder have different names if the things in each folder on the server do, and nothing at its top is named like the default configuration: a path leads to one
entry only. -/
theorem C182_once (children : List Node) (hd : Distinct (toc children)) (hn : ∀ c ∈ children, c.name ≠ "PySwitch Default".toList) (p : List Text) (e : Item) :
    (Shown (examples children) p e → (e.children.map Item.value).Nodup) ∧ (Shown (templates children) p e → (e.children.map Item.value).Nodup) := by
  refine ⟨fun h => ?_, C182.crawl_distinct _ p _ _ e hd⟩
  by_cases hp : p = []
  · subst hp
    rw [C182.shown_nil h]
    have hc := C182.crawl_distinct skipped [] _ [] _ hd (.here _)
    have hm : "PySwitch Default".toList ∉ (crawl skipped [] (toc children)).children.map Item.value := by
      rw [toc, crawl]
      split
      · exact List.not_mem_nil
      · show _ ∉ (crawlAll _ _ _).map Item.value
        rw [C182.crawlAll_values]
        intro hmem
        obtain ⟨c, hc, e⟩ := List.mem_map.mp (List.mem_filter.mp hmem).1
        exact hn c hc e
    obtain ⟨s, cs, h1, h2⟩ := C182.examples_eq children
    rw [h1] at hc hm
    rw [h2]
    exact List.nodup_cons.mpr ⟨hm, hc⟩
  · rcases C182.shown_examples h hp with h | ⟨_, rfl⟩
    · exact C182.crawl_distinct _ p _ _ e hd h
    · exact List.nodup_nil

/-- Selecting an example or template opens it, if no name on its path has one of the characters `#`, `?`, `+` (see C130). -/
theorem C182_opens (pathname : Text) (hn : '#' ∉ pathname) (p : List Text) (hp : p ≠ []) (h : ∀ n ∈ p, ∀ c ∈ n, c ≠ '#' ∧ c ≠ '?' ∧ c ≠ '+') :
    Links.route (openExample pathname (.folder (pathText p))) = .opened (.example ((pathText p).drop 1)) ∧
    Links.route (openTemplate pathname (.folder (pathText p))) = .opened (.template ((pathText p).drop 1)) := by
  obtain ⟨a, q, rfl⟩ := List.exists_cons_of_ne_nil hp
  have hs : pathText (a :: q) = '/' :: (a ++ pathText q) := by simp [pathText]
  have hw : PySwitch.Spec.Links.Without ['#', '?', '+'] (a ++ pathText q) := by
    have key : ∀ c ∈ a ++ pathText q, c ≠ '#' ∧ c ≠ '?' ∧ c ≠ '+' := by
      intro c hc
      rcases List.mem_append.mp hc with hc | hc
      · exact h a List.mem_cons_self c hc
      · obtain ⟨n, hn, hc⟩ := List.mem_flatMap.mp hc
        rcases List.mem_cons.mp hc with rfl | hc
        · decide
        · exact h n (List.mem_cons_of_mem _ hn) c hc
    intro x hx hmem
    have := key x hmem
    simp only [List.mem_cons, List.not_mem_nil, or_false] at hx
    rcases hx with rfl | rfl | rfl
    · exact this.1 rfl
    · exact this.2.1 rfl
    · exact this.2.2 rfl
  rw [hs]
  exact ⟨C130_other_partial pathname (.example (a ++ pathText q)) hn hw (by intro id e; cases e) (by intro e; cases e),
    C130_other_partial pathname (.template (a ++ pathText q)) hn hw (by intro id e; cases e) (by intro e; cases e)⟩

namespace C182

/-- A part of the tree of examples on the server. -/
def part : List Node :=
  [.file "toc.php".toList,
   .dir "Multiboot".toList [.dir "Dual".toList [.file "code.py".toList]],
   .dir "Kemper".toList [.dir "Nano 4".toList [.dir "Looper".toList [.file "inputs.py".toList]], .dir "Mini 6".toList [.dir "Morph".toList []]]]

end C182

example : IsExample skipped C182.part ["Kemper".toList, "Nano 4".toList, "Looper".toList] :=
  ⟨_, _, .child _ _ _ _ _ (.tail _ (.tail _ (.head _))) (by decide +kernel) (.child _ _ _ _ _ (.head _) (by decide +kernel) (.child _ _ _ _ _ (.head _) (by decide +kernel) (.here _))),
    by intro c hc; rcases List.mem_singleton.mp hc with rfl; rfl⟩

example : ¬ ∃ k e, Shown (examples C182.part) ["Multiboot".toList, "Dual".toList] e ∧ e.onSelect = some (.folder k) := by
  rintro ⟨k, h⟩
  obtain ⟨⟨n, cs, hr, -⟩, -⟩ := (C182_examples _ _ k).mp h
  generalize hp : ["Multiboot".toList, "Dual".toList] = p at hr
  cases hr with
  | here => cases hp
  | child _ _ c _ _ hc hs h =>
    have : c.name = "Multiboot".toList := (List.cons.inj hp).1.symm
    rw [this] at hs
    exact absurd hs (by decide +kernel)

example : Distinct (toc C182.part) ∧ ∀ c ∈ C182.part, c.name ≠ "PySwitch Default".toList := by
  refine ⟨.dir _ _ (by decide +kernel) ?_, by decide +kernel⟩
  intro c hc
  simp only [C182.part, List.mem_cons, List.not_mem_nil, or_false] at hc
  rcases hc with rfl | rfl | rfl
  · exact .file _
  · refine .dir _ _ (by decide +kernel) fun c hc => ?_
    rcases List.mem_singleton.mp hc with rfl
    refine .dir _ _ (by decide +kernel) fun c hc => ?_
    rcases List.mem_singleton.mp hc with rfl
    exact .file _
  · refine .dir _ _ (by decide +kernel) fun c hc => ?_
    simp only [List.mem_cons, List.not_mem_nil, or_false] at hc
    rcases hc with rfl | rfl
    · refine .dir _ _ (by decide +kernel) fun c hc => ?_
      rcases List.mem_singleton.mp hc with rfl
      refine .dir _ _ (by decide +kernel) fun c hc => ?_
      rcases List.mem_singleton.mp hc with rfl
      exact .file _
    · refine .dir _ _ (by decide +kernel) fun c hc => ?_
      rcases List.mem_singleton.mp hc with rfl
      exact .dir _ _ (by decide +kernel) fun c hc => absurd hc List.not_mem_nil

namespace C183

/-- From a folder one gets to something to select. -/
theorem leads (skip : Text → Bool) (x : Node) (hk : Kept skip x) : x.isDir = true → ∀ pre, ∃ q e, Shown (crawl skip pre x) q e ∧ e.onSelect ≠ none := by
  induction hk with
  | file n => intro h; cases h
  | dir n cs h _ ih =>
    intro _ pre
    by_cases hd : ∀ c ∈ cs, c.isDir = false
    · refine ⟨[], _, .here _, ?_⟩
      rw [C182.crawl_leaf skip pre n cs hd]
      exact Option.some_ne_none _
    · have he : ∃ c ∈ cs, c.isDir = true := by
        refine Classical.byContradiction fun hn => hd fun c hc => ?_
        cases hb : c.isDir with
        | false => rfl
        | true => exact absurd ⟨c, hc, hb⟩ hn
      obtain ⟨c, hc, hcd, hs⟩ := h he
      obtain ⟨q, e, hq, hs'⟩ := ih c hc hcd (pre ++ n ++ ['/'])
      rw [C182.crawl_inner skip pre n cs hd]
      exact ⟨_, e, .child _ _ q e ((C182.mem_crawlAll _ _ _ _).mpr ⟨c, hc, hs, rfl⟩) hq, hs'⟩

/-- Each entry of the tree is made of a folder or file. -/
theorem shown_crawl (skip : Text → Bool) (p : List Text) : ∀ (x : Node) (pre : Text) (e : Item), Kept skip x → Shown (crawl skip pre x) p e →
    ∃ y pre', Kept skip y ∧ e = crawl skip pre' y := by
  induction p with
  | nil => intro x pre e hk he; exact ⟨x, pre, hk, C182.shown_nil he⟩
  | cons a p ih =>
    intro x pre e hk he
    cases hk with
    | file n => rw [crawl] at he; cases he with | child _ c _ _ hc _ => cases hc
    | dir n cs h hcs =>
      rw [crawl] at he
      split at he
      · cases he with | child _ c _ _ hc _ => cases hc
      · cases he with
        | child _ c _ _ hc hx =>
          obtain ⟨d, hd, hs, rfl⟩ := (C182.mem_crawlAll _ _ _ _).mp hc
          exact ih d _ e (hcs d hd) hx

/-- An entry with something below it or to select is made of a folder. -/
theorem is_dir (skip : Text → Bool) (pre : Text) (y : Node) (h : (crawl skip pre y).children ≠ [] ∨ (crawl skip pre y).onSelect ≠ none) : y.isDir = true := by
  cases y with
  | dir => rfl
  | file n => rw [crawl] at h; rcases h with h | h <;> exact absurd rfl h

end C183

/-- If each folder with subfolders has one which is not left out, then each entry which the popup shows (it hides those which can not be selected and have nothing below) is one to select or leads
to one. -/
theorem C183_leads_partial (children : List Node) (p : List Text) (e : Item) (he : e.children ≠ [] ∨ e.onSelect ≠ none) :
    (Kept skipped (toc children) → Shown (examples children) p e → ∃ q x, Shown e q x ∧ x.onSelect ≠ none) ∧
    (Kept (fun _ => false) (toc children) → Shown (templates children) p e → ∃ q x, Shown e q x ∧ x.onSelect ≠ none) := by
  constructor
  · intro hk hs
    by_cases hp : p = []
    · subst hp
      rw [C182.shown_nil hs]
      obtain ⟨s, cs, _, h2⟩ := C182.examples_eq children
      rw [h2]
      exact ⟨_, _, .child _ _ _ _ List.mem_cons_self (.here _), Option.some_ne_none _⟩
    · rcases C182.shown_examples hs hp with h | ⟨_, rfl⟩
      · obtain ⟨y, pre, hy, rfl⟩ := C183.shown_crawl skipped p _ _ e hk h
        exact C183.leads skipped y hy (C183.is_dir skipped pre y he) pre
      · exact ⟨[], _, .here _, Option.some_ne_none _⟩
  · intro hk hs
    obtain ⟨y, pre, hy, rfl⟩ := C183.shown_crawl _ p _ _ e hk hs
    exact C183.leads _ y hy (C183.is_dir _ pre y he) pre

/-- For templates the condition always holds. -/
theorem C183_templates (children : List Node) (p : List Text) (e : Item) (he : e.children ≠ [] ∨ e.onSelect ≠ none) (hs : Shown (templates children) p e) :
    ∃ q x, Shown e q x ∧ x.onSelect ≠ none := by
  refine (C183_leads_partial children p e he).2 ?_ hs
  have all : ∀ (n : Nat) (x : Node), sizeOf x < n → Kept (fun _ => false) x := by
    intro n
    induction n with
    | zero => intro x h; omega
    | succ n ih =>
      intro x h
      cases x with
      | file m => exact .file m
      | dir m cs =>
        refine .dir m cs (fun ⟨c, hc, hd⟩ => ⟨c, hc, hd, rfl⟩) fun c hc => ih c ?_
        have := List.sizeOf_lt_of_mem hc
        simp only [Node.dir.sizeOf_spec] at h
        omega
  exact all _ _ (Nat.lt_succ_self _)

/-- A folder with a file, of which all subfolders are left out, is shown, but there is nothing in it. -/
theorem C183_empty_witness : ∃ children p e, Shown (examples children) p e ∧ e.children ≠ [] ∧ ¬ ∃ q x, Shown e q x ∧ x.onSelect ≠ none := by
  refine ⟨[.dir "Boot".toList [.dir "Multiboot".toList [], .file "README.md".toList]], _, _,
    .child _ (.mk "Boot".toList none [.mk "README.md".toList none []]) [] _ ?_ (.here _), List.cons_ne_nil _ _, ?_⟩
  · have : examples [.dir "Boot".toList [.dir "Multiboot".toList [], .file "README.md".toList]] =
        .mk [] none [.mk "PySwitch Default".toList (some .default) [], .mk "Boot".toList none [.mk "README.md".toList none []]] := by rfl
    rw [this]
    exact .tail _ (.head _)
  · rintro ⟨q, x, h, hs⟩
    cases h with
    | here => exact hs rfl
    | child _ c _ _ hc hx =>
      rcases List.mem_singleton.mp hc with rfl
      cases hx with
      | here => exact hs rfl
      | child _ d _ _ hd _ => cases hd

end PySwitch.Props
