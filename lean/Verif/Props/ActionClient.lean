import Verif.Spec.ActionClient
/-! C196: the definitions of actions. -/

namespace PySwitch.Props
open PySwitch PySwitch.ActionClient PySwitch.Spec.ActionClient

namespace C196

theorem isIn_iff (p t : Text) : isIn p t = true ↔ Contains p t := by
  induction t with
  | nil =>
    constructor
    · intro h
      obtain ⟨b, hb⟩ := List.isPrefixOf_iff_prefix.mp h
      exact ⟨[], b, by simpa using hb.symm⟩
    · rintro ⟨a, b, h⟩
      have : p = [] := by
        have := congrArg List.length h
        simp only [List.length_nil, List.length_append] at this
        exact List.length_eq_zero_iff.mp (by omega)
      subst this; rfl
  | cons c t ih =>
    simp only [isIn, Bool.or_eq_true, ih]
    constructor
    · rintro (h | ⟨a, b, rfl⟩)
      · obtain ⟨b, hb⟩ := List.isPrefixOf_iff_prefix.mp h
        exact ⟨[], b, by simpa using hb.symm⟩
      · exact ⟨c :: a, b, rfl⟩
    · rintro ⟨a, b, h⟩
      cases a with
      | nil => left; exact List.isPrefixOf_iff_prefix.mpr ⟨b, by simpa using h.symm⟩
      | cons d a =>
        right
        simp only [List.cons_append, List.cons.injEq] at h
        exact ⟨a, b, h.2⟩

theorem value_iff (a : Alias) (name : Text) : a.value = some name ↔ (a.asname = some name ∨ (a.asname = none ∧ a.name = some name)) := by
  unfold Alias.value
  cases a.asname <;> simp

theorem scan_none (name code : Text) (r : Option Text) (l : List Alias) (h : ∀ a ∈ l, a.value ≠ some name) : scan name code r l = r := by
  induction l with
  | nil => rfl
  | cons a l ih =>
    unfold scan
    rw [if_neg (h a (by simp))]
    exact ih fun b hb => h b (by simp [hb])

theorem scan_code (name code : Text) (l : List Alias) : scan name code (some code) l = some code := by
  induction l with
  | nil => rfl
  | cons a l ih => unfold scan; split <;> exact ih

theorem scan_some (name code : Text) (r : Option Text) (l : List Alias) (h : ∃ a ∈ l, a.value = some name) : scan name code r l = some code := by
  induction l generalizing r with
  | nil => simp at h
  | cons a l ih =>
    unfold scan
    split
    · exact scan_code name code l
    · rename_i hn
      obtain ⟨b, hb, hv⟩ := h
      rcases List.mem_cons.mp hb with rfl | hb
      · exact absurd hv hn
      · exact ih r ⟨b, hb, hv⟩

theorem visit_not (name : Text) (r : Option Text) (i : Import) (h : ¬ Binds i name) : visit name r i = r := by
  unfold visit
  split
  · rfl
  · split
    · rfl
    · rename_i names hn
      refine scan_none _ _ _ _ fun a ha hv => h ⟨names, hn, a, ha, (value_iff a name).mp hv⟩

theorem visit_binds (name : Text) (i : Import) (h : Binds i name) : visit name none i = some i.code := by
  obtain ⟨names, hn, a, ha, hv⟩ := h
  unfold visit
  simp only [hn]
  exact scan_some _ _ _ _ ⟨a, ha, (value_iff a name).mpr hv⟩

theorem fold_not (name : Text) (l : List Import) (h : ∀ i ∈ l, ¬ Binds i name) (r : Option Text) : l.foldl (visit name) r = r := by
  induction l with
  | nil => rfl
  | cons i l ih => rw [List.foldl_cons, visit_not name r i (h i (by simp))]; exact ih fun j hj => h j (by simp [hj])

theorem fold_some (name : Text) (l : List Import) (c : Char) (t : Text) : l.foldl (visit name) (some (c :: t)) = some (c :: t) := by
  induction l with
  | nil => rfl
  | cons i l ih => rw [List.foldl_cons]; exact ih

theorem statement (name : Text) (before after : List Import) (i : Import) (hb : ∀ j ∈ before, ¬ Binds j name) (hi : Binds i name) (hc : i.code ≠ []) :
    importStatement name (before ++ i :: after) = some i.code := by
  unfold importStatement
  rw [List.foldl_append, fold_not name before hb, List.foldl_cons, visit_binds name i hi]
  cases h : i.code with
  | nil => exact absurd h hc
  | cons c t => exact fold_some name after c t

theorem clientOf_unique (s c : Text) (clients : List Text) (hm : c ∈ clients) (hc : Contains c s) (hu : ∀ d ∈ clients, Contains d s → d = c) : clientOf s clients = c := by
  induction clients with
  | nil => simp at hm
  | cons d l ih =>
    unfold clientOf
    by_cases hd : isIn d s = true
    · rw [if_pos hd]; exact hu d (by simp) ((isIn_iff d s).mp hd)
    · rw [if_neg hd]
      rcases List.mem_cons.mp hm with rfl | hm
      · exact absurd ((isIn_iff c s).mpr hc) hd
      · exact ih hm fun e he => hu e (by simp [he])

theorem clientOf_none (s : Text) (clients : List Text) (hu : ∀ d ∈ clients, ¬ Contains d s) : clientOf s clients = "local".toList := by
  induction clients with
  | nil => rfl
  | cons d l ih =>
    unfold clientOf
    rw [if_neg fun hd => hu d (by simp) ((isIn_iff d s).mp hd)]
    exact ih fun e he => hu e (by simp [he])

theorem determine (clients : List Text) (name : Text) (before after : List Import) (i : Import) (hb : ∀ j ∈ before, ¬ Binds j name) (hi : Binds i name) (hc : i.code ≠ []) :
    determineClient clients (before ++ i :: after) name = clientOf i.code clients := by
  unfold determineClient
  rw [statement name before after i hb hi hc]
  cases h : i.code with
  | nil => exact absurd h hc
  | cons c t => rfl

/-- What has to be checked for the definitions: each import contains the name of its client and no other one, or none if it is of the local ones, and the search for the name finds it. -/
def good (clients : List Text) (catalogue : Catalogue) : Bool :=
  catalogue.all fun e => e.2.all fun a =>
    (a.name != a.importName || (
      (clients.all fun c => isIn c (importFor a).code == (c == e.1 && clients.any fun d => isIn d (importFor a).code)) &&
      (clients.any (fun d => isIn d (importFor a).code) || e.1 == "local".toList) &&
      getActionDefinition a.name e.1 a.target catalogue == some a)) && (importFor a).code != []

theorem good_shipped : good ["boomerang".toList, "kemper".toList, "local".toList] shipped = true := by decide +kernel

end C196

/-- C196. The client of a name is the one which occurs in the first import statement of the name. Missing: statements with the names of several clients, see the witnesses. -/
theorem C196_client_partial (clients : List Text) (c name : Text) (before after : List Import) (i : Import)
    (hb : ∀ j ∈ before, ¬ Binds j name) (hi : Binds i name)
    (hm : c ∈ clients) (hc : Contains c i.code) (hu : ∀ d ∈ clients, Contains d i.code → d = c) (hne : i.code ≠ []) :
    determineClient clients (before ++ i :: after) name = c := by
  rw [C196.determine clients name before after i hb hi hne]
  exact C196.clientOf_unique _ _ _ hm hc hu

/-- An action which is imported together with another one, after an import of all names of a module. -/
example : let i : Import := ⟨"from pyswitch.clients.kemper.actions.tuner import TUNER_MODE as T, X".toList, some [⟨some "TUNER_MODE".toList, some "T".toList⟩, ⟨some "X".toList, none⟩]⟩
    Binds i "T".toList ∧ ¬ Binds ⟨"from pyswitch.clients.boomerang import *".toList, none⟩ "T".toList ∧ Contains "kemper".toList i.code ∧ ¬ Contains "local".toList i.code := by
  refine ⟨⟨_, rfl, _, List.mem_cons_self, .inl rfl⟩, ?_, (C196.isIn_iff _ _).mp (by decide +kernel), fun h => absurd ((C196.isIn_iff _ _).mpr h) (by decide +kernel)⟩
  rintro ⟨_, h, _⟩
  cases h

/-- C196. Names which are not imported, or not from a client, are local ones. -/
theorem C196_local (clients : List Text) (name : Text) (imports : List Import)
    (h : ∀ i ∈ imports, Binds i name → i.code ≠ [] ∧ ∀ d ∈ clients, ¬ Contains d i.code) :
    determineClient clients imports name = "local".toList := by
  have hfold : ∀ (l : List Import) (r : Option Text), (∀ s, r = some s → s ≠ [] ∧ ∀ d ∈ clients, ¬ Contains d s) →
      (∀ i ∈ l, Binds i name → i.code ≠ [] ∧ ∀ d ∈ clients, ¬ Contains d i.code) →
      ∀ s, l.foldl (visit name) r = some s → s ≠ [] ∧ ∀ d ∈ clients, ¬ Contains d s := by
    intro l
    induction l with
    | nil => intro r hr _ s hs; exact hr s hs
    | cons i l ih =>
      intro r hr hl s hs
      rw [List.foldl_cons] at hs
      refine ih _ ?_ (fun j hj => hl j (by simp [hj])) s hs
      intro u hu
      by_cases hbi : Binds i name
      · cases r with
        | none => rw [C196.visit_binds name i hbi] at hu; cases hu; exact hl i (by simp) hbi
        | some v =>
          obtain ⟨hv, hv2⟩ := hr v rfl
          cases v with
          | nil => exact absurd rfl hv
          | cons c t => cases hu; exact ⟨hv, hv2⟩
      · rw [C196.visit_not name r i hbi] at hu; exact hr u hu
  unfold determineClient importStatement
  split
  · rename_i c t hs
    exact C196.clientOf_none _ _ (hfold imports none (by simp) h _ hs).2
  · rfl

/-- C196. For every action of the editor, the definition is found by the import statement which the editor writes for it: whatever else is imported, and in whatever order the clients are listed.
(A proxy of a pager is not called by the name of its import.) -/
theorem C196_shipped (clients : List Text) (hp : clients.Perm ["boomerang".toList, "kemper".toList, "local".toList])
    (client : Text) (actions : List Action) (hc : (client, actions) ∈ shipped) (a : Action) (ha : a ∈ actions) (hn : a.name = a.importName)
    (before after : List Import) (hb : ∀ j ∈ before, ¬ Binds j a.name) :
    definition clients shipped (before ++ importFor a :: after) a.name a.target = some a := by
  have hg := List.all_eq_true.mp (List.all_eq_true.mp C196.good_shipped (client, actions) hc) a ha
  simp only [Bool.and_eq_true, Bool.or_eq_true, bne_iff_ne, ne_eq, hn, not_true_eq_false, false_or, List.all_eq_true, List.any_eq_true, beq_iff_eq] at hg
  obtain ⟨⟨⟨hall, hany⟩, hdef⟩, hne⟩ := hg
  unfold definition
  have hbind : Binds (importFor a) a.name := ⟨_, rfl, ⟨some a.importName, none⟩, by simp, .inr ⟨rfl, by rw [hn]⟩⟩
  rw [C196.determine clients a.name before after _ hb hbind hne]
  have : clientOf (importFor a).code clients = client := by
    by_cases hx : ∃ d ∈ ["boomerang".toList, "kemper".toList, "local".toList], isIn d (importFor a).code = true
    · obtain ⟨d, hd, hdi⟩ := hx
      have hd2 := hall d hd
      have hu : ∀ e ∈ clients, Contains e (importFor a).code → e = client := by
        intro e he hce
        have := hall e (hp.mem_iff.mp he)
        rw [(C196.isIn_iff _ _).mpr hce] at this
        have h2 := this.symm
        rw [Bool.and_eq_true, beq_iff_eq] at h2
        exact h2.1
      have hdc : d = client := hu d (hp.mem_iff.mpr hd) ((C196.isIn_iff _ _).mp hdi)
      subst hdc
      exact C196.clientOf_unique _ _ _ (hp.mem_iff.mpr hd) ((C196.isIn_iff _ _).mp hdi) hu
    · have hl : client = "local".toList := hany.resolve_left hx
      rw [hl]
      exact C196.clientOf_none _ _ fun d hd hcd => hx ⟨d, hp.mem_iff.mp hd, (C196.isIn_iff _ _).mpr hcd⟩
  rw [this, hn]
  exact hdef

example : (shipped.map fun e => (e.2.filter fun a => a.name == a.importName).length) = [12, 28, 7, 3] := by decide +kernel

/-- C196. A definition which is found has the name and is for this type of input, and it is of the client or a local one. -/
theorem C196_found (name client type : Text) (catalogue : Catalogue) (a : Action) (h : getActionDefinition name client type catalogue = some a) :
    a.name = name ∧ a.target = type ∧ ∃ c actions, (c, actions) ∈ catalogue ∧ a ∈ actions ∧ (c = client ∨ c = "local".toList) := by
  induction catalogue with
  | nil => simp [getActionDefinition] at h
  | cons e rest ih =>
    obtain ⟨c, actions⟩ := e
    unfold getActionDefinition at h
    split at h
    · obtain ⟨h1, h2, c', l, hm, hx⟩ := ih h
      exact ⟨h1, h2, c', l, by simp [hm], hx⟩
    · rename_i hc
      split at h
      · rename_i b hf
        simp only [Option.some.injEq] at h
        subst h
        have hp := List.find?_some hf
        simp only [Bool.and_eq_true, beq_iff_eq] at hp
        refine ⟨hp.2, hp.1, c, actions, by simp, List.mem_of_find?_eq_some hf, ?_⟩
        simp only [Bool.and_eq_true, bne_iff_ne, ne_eq, not_and, Classical.not_not] at hc
        by_cases h1 : c = client
        · exact .inl h1
        · exact .inr (hc h1)
      · obtain ⟨h1, h2, c', l, hm, hx⟩ := ih h
        exact ⟨h1, h2, c', l, by simp [hm], hx⟩

/-- C196 fails for statements in which several clients occur, for example in a comment: it depends on the order in which the folders of the clients are listed by the web server. -/
theorem C196_comment_witness :
    let i : Import := ⟨"from pyswitch.clients.kemper.actions.tuner import (\n    TUNER_MODE # with local colors\n)".toList, some [⟨some "TUNER_MODE".toList, none⟩]⟩
    (definition ["boomerang".toList, "kemper".toList, "local".toList] shipped [i] "TUNER_MODE".toList "AdafruitSwitch".toList).isSome = true ∧
    definition ["local".toList, "boomerang".toList, "kemper".toList] shipped [i] "TUNER_MODE".toList "AdafruitSwitch".toList = none := by
  decide +kernel

/-- If a name is imported twice, the editor takes the first statement, but Python the last one. -/
theorem C196_twice_witness :
    determineClient ["boomerang".toList, "kemper".toList, "local".toList]
      [⟨"from pyswitch.clients.kemper import A".toList, some [⟨some "A".toList, none⟩]⟩, ⟨"from pyswitch.clients.boomerang import A".toList, some [⟨some "A".toList, none⟩]⟩] "A".toList =
        "kemper".toList := by decide +kernel

end PySwitch.Props
