import Verif.Spec.Imports
import Verif.Spec.Editor

/-!
The configuration editor: the imports of a saved file.
-/

namespace PySwitch.Props
open PySwitch.Editor PySwitch.Spec.Imports

namespace C107

theorem unused_sub {r : Occ → Bool} : ∀ {order : List Occ} {im : List String} {o : Occ},
    o ∈ unusedImports r order im → o ∈ order
  | [], _, _, h => by simp [unusedImports] at h
  | a :: order, im, o, h => by
    simp only [unusedImports] at h
    split at h
    · rcases List.mem_cons.1 h with rfl | h
      · simp
      · exact List.mem_cons_of_mem _ (unused_sub h)
    · exact List.mem_cons_of_mem _ (unused_sub h)

/-- What is referenced nowhere is unused. -/
theorem unused_of {r : Occ → Bool} : ∀ {order : List Occ} {im : List String} {o : Occ},
    o ∈ order → r o = false → o ∈ unusedImports r order im
  | a :: order, im, o, h, hr => by
    simp only [unusedImports]
    rcases List.mem_cons.1 h with rfl | h
    · rw [if_pos (by simp [hr])]; simp
    · split
      · exact List.mem_cons_of_mem _ (unused_of h hr)
      · exact unused_of h hr

def keptOf (U : List Occ) (x : String) (l : List Occ) : List Occ :=
  l.filter fun o => (o.bound == x) && !U.contains o

/-- One of the referenced names is kept, whatever the order is. -/
theorem kept_count {r : Occ → Bool} {x : String} : ∀ {order : List Occ} {im : List String},
    order.Nodup →
    (keptOf (unusedImports r order im) x order).length =
      if x ∉ im ∧ ∃ o ∈ order, o.bound = x ∧ r o = true then 1 else 0
  | [], im, _ => by simp [keptOf]
  | o :: order, im, hn => by
    rw [List.nodup_cons] at hn
    obtain ⟨ho, hn⟩ := hn
    have ih := fun im => kept_count (r := r) (x := x) (im := im) hn
    simp only [unusedImports]
    by_cases hc : (!r o || im.contains o.bound) = true
    · rw [if_pos hc]
      have e : keptOf (o :: unusedImports r order im) x (o :: order) =
          keptOf (unusedImports r order im) x order := by
        simp only [keptOf]
        rw [List.filter_cons_of_neg (by simp)]
        apply List.filter_congr
        intro a ha
        have : a ≠ o := fun h => ho (h ▸ ha)
        simp [this]
      rw [e, ih]
      simp at hc
      by_cases hx : x ∉ im
      · by_cases hex : ∃ o ∈ order, o.bound = x ∧ r o = true
        · rw [if_pos ⟨hx, hex⟩, if_pos]
          obtain ⟨a, h1, h2⟩ := hex
          exact ⟨hx, a, List.mem_cons_of_mem _ h1, h2⟩
        · rw [if_neg (fun h => hex h.2), if_neg]
          rintro ⟨_, a, h1, h2, h3⟩
          rcases List.mem_cons.1 h1 with rfl | h1
          · rcases hc with hc | hc
            · rw [h3] at hc; cases hc
            · exact hx (h2 ▸ hc)
          · exact hex ⟨a, h1, h2, h3⟩
      · rw [if_neg (fun h => hx h.1), if_neg (fun h => hx h.1)]
    · rw [if_neg hc]
      simp at hc
      have hou : o ∉ unusedImports r order (o.bound :: im) := fun h => ho (unused_sub h)
      by_cases hx : o.bound = x
      · have e : keptOf (unusedImports r order (o.bound :: im)) x (o :: order) =
            o :: keptOf (unusedImports r order (o.bound :: im)) x order := by
          simp only [keptOf]
          rw [List.filter_cons_of_pos (by rw [hx] at hou ⊢; simp [hou])]
        rw [e, List.length_cons, ih, if_neg (by simp [hx]), if_pos]
        exact ⟨hx ▸ hc.2, o, List.mem_cons_self .., hx, hc.1⟩
      · have e : keptOf (unusedImports r order (o.bound :: im)) x (o :: order) =
            keptOf (unusedImports r order (o.bound :: im)) x order := by
          simp only [keptOf]
          rw [List.filter_cons_of_neg (by simp [hx])]
        rw [e, ih]
        have : (x ∉ o.bound :: im ∧ ∃ a ∈ order, a.bound = x ∧ r a = true) ↔
            (x ∉ im ∧ ∃ a ∈ o :: order, a.bound = x ∧ r a = true) := by
          constructor
          · rintro ⟨h1, a, h2, h3⟩
            exact ⟨fun h => h1 (List.mem_cons_of_mem _ h), a, List.mem_cons_of_mem _ h2, h3⟩
          · rintro ⟨h1, a, h2, h3, h4⟩
            refine ⟨?_, a, ?_, h3, h4⟩
            · intro h
              rcases List.mem_cons.1 h with h | h
              · exact hx h.symm
              · exact h1 h
            · rcases List.mem_cons.1 h2 with rfl | h2
              · exact absurd h3 hx
              · exact h2
        simp only [this]

/-! ### Occurrences -/

theorem occ_stmt_ge : ∀ {l : List Stmt} {i : Nat} {o : Occ}, o ∈ occurrences i l → i ≤ o.stmt
  | [], _, _, h => by simp [occurrences] at h
  | s :: l, i, o, h => by
    simp only [occurrences, List.mem_append] at h
    rcases h with h | h
    · cases s <;> simp [occOf] at h
      · obtain ⟨a, b, _, rfl⟩ := h; simp
      · obtain ⟨a, b, c, _, d, e, _, rfl⟩ := h; simp
    · have := occ_stmt_ge h; omega

theorem occOf_eq {s i o} (h : o ∈ occOf i s) : o.stmt = i := by
  cases s <;> simp [occOf] at h
  · obtain ⟨a, b, _, rfl⟩ := h; rfl
  · obtain ⟨a, b, c, _, d, e, _, rfl⟩ := h; rfl

theorem occ_nodup : ∀ {l : List Stmt} {i : Nat}, NoLocal l → NoneTwice l → (occurrences i l).Nodup
  | [], _, _, _ => by simp [occurrences]
  | s :: l, i, hl, ht => by
    simp only [occurrences]
    rw [List.nodup_append]
    refine ⟨?_, occ_nodup (fun is c h => hl is c (List.mem_cons_of_mem _ h))
      (fun m n h => ht m n (List.mem_cons_of_mem _ h)), ?_⟩
    · cases s with
      | imp m names =>
        have := ht m names (List.mem_cons_self ..)
        simp only [occOf]
        rw [List.Nodup, List.pairwise_map] at this ⊢
        exact this.imp (fun h e => h (by injection e))
      | block is c =>
        have := hl is c (List.mem_cons_self ..)
        subst this
        simp [occOf]
      | _ => simp [occOf]
    · intro a ha b hb e
      have h1 := occOf_eq ha
      have h2 := occ_stmt_ge hb
      subst e
      omega

theorem pruneNames_getD {U i k} (names : List (String × String)) :
    (pruneNames U i k names).getD [] = names.filter fun n => !U.contains ⟨i, k, n.2⟩ := by
  simp only [pruneNames]
  by_cases h : (names.any fun n => U.contains ⟨i, k, n.2⟩) = true
  · rw [if_pos h]
    by_cases h' : (names.filter fun n => !U.contains ⟨i, k, n.2⟩).isEmpty = true
    · rw [if_pos h']
      simpa using h'
    · rw [if_neg h']; simp
  · rw [if_neg h]
    simp only [Option.getD_some]
    symm
    rw [List.filter_eq_self]
    intro a ha
    simp at h
    simpa using h a.1 a.2 ha

theorem imports_prune_stmt {U i} (s : Stmt) :
    imports (pruneStmt U i s) = (importsOf s).filter fun e => !U.contains ⟨i, 0, e.2.2⟩ := by
  cases s with
  | imp m names =>
    have := pruneNames_getD (U := U) (i := i) (k := 0) names
    simp only [pruneStmt, importsOf, List.filter_map, Function.comp_def]
    rw [← this]
    cases pruneNames U i 0 names <;> simp [imports, importsOf]
  | _ => simp [pruneStmt, imports, importsOf]

theorem imports_append (a b : List Stmt) : imports (a ++ b) = imports a ++ imports b := by
  simp [imports]

theorem times_append (a b : List Stmt) (x) :
    timesImported (a ++ b) x = timesImported a x + timesImported b x := by
  simp [timesImported, imports_append]

theorem times_prune {U x} : ∀ {l : List Stmt} {i : Nat}, NoLocal l →
    timesImported (pruneImports U i l) x = (keptOf U x (occurrences i l)).length
  | [], _, _ => by simp [pruneImports, timesImported, imports, occurrences, keptOf]
  | s :: l, i, hl => by
    have ih := times_prune (U := U) (x := x) (l := l) (i := i + 1)
      (fun is c h => hl is c (List.mem_cons_of_mem _ h))
    simp only [pruneImports, occurrences]
    rw [times_append, ih]
    simp only [keptOf, List.filter_append, List.length_append]
    congr 1
    simp only [timesImported, imports_prune_stmt, List.filter_filter]
    cases s with
    | imp m names =>
      simp only [importsOf, occOf, List.filter_map, Function.comp_def, List.length_map]
    | block is c =>
      have := hl is c (List.mem_cons_self ..)
      subst this
      simp [importsOf, occOf]
    | _ => simp [importsOf, occOf]

theorem occ_of_import : ∀ {l : List Stmt} {i : Nat} {x : String}, Imports l x →
    ∃ o ∈ occurrences i l, o.bound = x
  | [], _, _, h => by simp [Imports, imports] at h
  | s :: l, i, x, h => by
    obtain ⟨e, he, hx⟩ := h
    simp only [imports, List.flatMap_cons, List.mem_append] at he
    simp only [occurrences, List.mem_append]
    rcases he with he | he
    · cases s <;> simp [importsOf] at he
      rename_i m names
      obtain ⟨a, b, hab, rfl⟩ := he
      refine ⟨⟨i, 0, b⟩, .inl ?_, hx⟩
      simp [occOf]
      exact ⟨a, hab⟩
    · obtain ⟨o, ho, hb⟩ := occ_of_import (i := i + 1) (x := x) ⟨e, he, hx⟩
      exact ⟨o, .inr ho, hb⟩

/-! ### References -/

theorem globals_eq {refs : Stmt → List String} {l : List Stmt} (hl : NoLocal l) {s} (hs : s ∈ l) :
    s.globals refs = if isImport s then [] else refs s := by
  cases s with
  | block is c =>
    have := hl is c hs
    subst this
    simp only [Stmt.globals, isImport, List.any_nil, Bool.not_false]
    simp
  | _ => simp [Stmt.globals, isImport]

theorem any_globals {refs : Stmt → List String} {l : List Stmt} (hl : NoLocal l) (x : String) :
    (l.any fun s => (s.globals refs).contains x) = true ↔ Uses refs l x := by
  simp only [List.any_eq_true, Uses]
  constructor
  · rintro ⟨s, hs, h⟩
    rw [globals_eq hl hs] at h
    cases hi : isImport s <;> simp [hi] at h
    exact ⟨s, hs, hi, h⟩
  · rintro ⟨s, hs, hi, h⟩
    exact ⟨s, hs, by rw [globals_eq hl hs]; simp [hi, h]⟩

theorem occ_get : ∀ {l : List Stmt} {i : Nat} {o : Occ}, o ∈ occurrences i l →
    ∃ s, l[o.stmt - i]? = some s ∧ o ∈ occOf o.stmt s
  | [], _, _, h => by simp [occurrences] at h
  | s :: l, i, o, h => by
    simp only [occurrences, List.mem_append] at h
    rcases h with h | h
    · have := occOf_eq h
      refine ⟨s, by simp [this], by rw [this]; exact h⟩
    · have hge := occ_stmt_ge h
      obtain ⟨t, h1, h2⟩ := occ_get h
      refine ⟨t, ?_, h2⟩
      have : o.stmt - i = (o.stmt - (i + 1)) + 1 := by omega
      rw [this, List.getElem?_cons_succ, h1]

theorem referenced_eq {refs : Stmt → List String} {l : List Stmt} (hl : NoLocal l) {o}
    (ho : o ∈ occurrences 0 l) : referenced refs l o = true ↔ Uses refs l o.bound := by
  obtain ⟨s, h1, h2⟩ := occ_get ho
  simp only [Nat.sub_zero] at h1
  rw [← any_globals hl]
  simp only [referenced, h1]
  cases s with
  | block is c =>
    have := hl is c (List.mem_of_getElem? h1)
    subst this
    simp [occOf] at h2
  | _ => rfl

/-! ### The added imports -/

def added (defs : List (String × String)) : List Stmt := defs.map fun d => .imp d.1 [(d.2, d.2)]

theorem addImports_eq {defs s rest} (hs : s.isSimple = true) :
    addImports defs (s :: rest) = added defs ++ s :: rest := by
  cases s <;> simp_all [addImports, added, Stmt.isSimple]

theorem noLocal_added {defs body} (h : NoLocal body) : NoLocal (added defs ++ body) := by
  intro is c hm
  simp [added] at hm
  exact h is c hm

theorem noneTwice_added {defs body} (h : NoneTwice body) : NoneTwice (added defs ++ body) := by
  intro m names hm
  simp [added] at hm
  rcases hm with ⟨a, b, _, rfl, rfl⟩ | hm
  · simp
  · exact h m names hm

theorem imports_added (defs) : imports (added defs) = defs.map fun d => (d.1, d.2, d.2) := by
  simp only [imports, added]
  induction defs with
  | nil => rfl
  | cons d defs ih => simp [importsOf, ih]

theorem imports_of_added {defs body x} :
    Imports (added defs ++ body) x ↔ Importable defs x ∨ Imports body x := by
  simp only [Imports, imports_append, imports_added, Importable, List.mem_append]
  constructor
  · rintro ⟨e, he | he, hx⟩
    · obtain ⟨d, hd, rfl⟩ := List.mem_map.1 he
      exact .inl ⟨d, hd, hx⟩
    · exact .inr ⟨e, he, hx⟩
  · rintro (⟨d, hd, hx⟩ | ⟨e, he, hx⟩)
    · exact ⟨_, .inl (List.mem_map.2 ⟨d, hd, rfl⟩), hx⟩
    · exact ⟨e, .inr he, hx⟩

theorem uses_added {refs defs body x} : Uses refs (added defs ++ body) x ↔ Uses refs body x := by
  simp only [Uses, List.mem_append]
  constructor
  · rintro ⟨s, hs | hs, hi, hx⟩
    · simp [added] at hs
      obtain ⟨a, b, _, rfl⟩ := hs
      simp [isImport] at hi
    · exact ⟨s, hs, hi, hx⟩
  · rintro ⟨s, hs, h⟩
    exact ⟨s, .inr hs, h⟩

end C107

/-- **C107** In the saved file every name which is used and which can be imported, or has been
imported before, is imported exactly once, and all other names are not imported: for every file
which begins with a simple statement and has no imports inside of functions and no name twice in
an import, for all definitions which can be imported, and whatever order the parser's sets have. -/
theorem C107_imported_partial (refs : Stmt → List String) (defs : List (String × String))
    (body : List Stmt) (order : List Occ) (first : Stmt) (others : List Stmt)
    (hbody : body = first :: others) (hfirst : first.isSimple = true)
    (hlocal : NoLocal body) (htwice : NoneTwice body)
    (horder : order.Perm (occurrences 0 (addImports defs body))) (x : String) :
    (Uses refs body x → Importable defs x ∨ Imports body x →
      timesImported (toSource refs defs order body) x = 1) ∧
    (¬Uses refs body x ∨ ¬(Importable defs x ∨ Imports body x) →
      timesImported (toSource refs defs order body) x = 0) := by
  have hb : addImports defs body = C107.added defs ++ body := by
    rw [hbody]; exact C107.addImports_eq hfirst
  have hl := C107.noLocal_added (defs := defs) hlocal
  have ht := C107.noneTwice_added (defs := defs) htwice
  rw [hb] at horder
  have hn : order.Nodup := horder.nodup_iff.2 (C107.occ_nodup hl ht)
  have hcount : timesImported (toSource refs defs order body) x =
      if ∃ o ∈ order, o.bound = x ∧ referenced refs (C107.added defs ++ body) o = true
      then 1 else 0 := by
    simp only [toSource, hb]
    rw [C107.times_prune hl]
    have hk := C107.kept_count (r := referenced refs (C107.added defs ++ body)) (x := x)
      (im := []) hn
    simp only [List.not_mem_nil, not_false_eq_true, true_and] at hk
    rw [← hk]
    exact ((horder.symm).filter _).length_eq
  have hex : (∃ o ∈ order, o.bound = x ∧ referenced refs (C107.added defs ++ body) o = true) ↔
      Uses refs body x ∧ (Importable defs x ∨ Imports body x) := by
    constructor
    · rintro ⟨o, ho, rfl, hr⟩
      have ho' := horder.mem_iff.1 ho
      refine ⟨C107.uses_added.1 ((C107.referenced_eq hl ho').1 hr), ?_⟩
      rw [← C107.imports_of_added]
      obtain ⟨s, h1, h2⟩ := C107.occ_get ho'
      simp only [Nat.sub_zero] at h1
      have hs := List.mem_of_getElem? h1
      cases s with
      | imp m names =>
        simp only [occOf, List.mem_map] at h2
        obtain ⟨n, hn, e⟩ := h2
        refine ⟨(m, n.1, n.2), ?_, ?_⟩
        · simp only [imports, List.mem_flatMap]
          exact ⟨_, hs, by simp only [importsOf, List.mem_map]; exact ⟨n, hn, rfl⟩⟩
        · rw [← e]
      | block is c =>
        have := hl is c hs
        subst this
        simp [occOf] at h2
      | _ => simp [occOf] at h2
    · rintro ⟨hu, hi⟩
      obtain ⟨o, ho, hx⟩ := C107.occ_of_import (i := 0) (C107.imports_of_added.2 hi)
      subst hx
      exact ⟨o, horder.mem_iff.2 ho, rfl, (C107.referenced_eq hl ho).2 (C107.uses_added.2 hu)⟩
  rw [hcount]
  refine ⟨fun h1 h2 => if_pos (hex.2 ⟨h1, h2⟩), fun h => if_neg fun he => ?_⟩
  obtain ⟨h1, h2⟩ := hex.1 he
  rcases h with h | h
  · exact h h1
  · exact h h2

namespace C107

theorem rest_pruneStmt {U i} (s : Stmt) : (pruneStmt U i s).filterMap rest = [s].filterMap rest := by
  cases s with
  | imp m names => cases h : pruneNames U i 0 names <;> simp [pruneStmt, h] <;> simp [rest, List.filterMap_cons]
  | _ => simp [pruneStmt, rest]

theorem rest_prune {U} : ∀ {l : List Stmt} {i : Nat},
    (pruneImports U i l).filterMap rest = l.filterMap rest
  | [], _ => by simp [pruneImports]
  | s :: l, i => by
    simp only [pruneImports, List.filterMap_append, rest_pruneStmt, rest_prune]
    rw [← List.filterMap_append]; rfl

theorem rest_add {defs} : ∀ {l : List Stmt}, (addImports defs l).filterMap rest = l.filterMap rest
  | [] => by simp [addImports]
  | s :: l => by
    have ha : (added defs).filterMap rest = [] := by
      simp [added, rest]
    cases s with
    | block is c => simp [addImports, rest]
    | _ =>
      rw [addImports_eq rfl, List.filterMap_append, ha]; rfl

theorem imports_prune_sub {U} : ∀ {l : List Stmt} {i : Nat} {e},
    e ∈ imports (pruneImports U i l) → e ∈ imports l
  | [], _, _, h => by simp [pruneImports, imports] at h
  | s :: l, i, e, h => by
    simp only [pruneImports, imports_append, imports_prune_stmt, List.mem_append] at h
    simp only [imports, List.flatMap_cons, List.mem_append]
    rcases h with h | h
    · exact .inl (List.mem_filter.1 h).1
    · exact .inr (imports_prune_sub h)

theorem imports_add_sub {defs} : ∀ {l : List Stmt} {e}, e ∈ imports (addImports defs l) →
    e ∈ imports l ∨ ∃ d ∈ defs, e = (d.1, d.2, d.2)
  | [], _, h => by simp [addImports, imports] at h
  | s :: l, e, h => by
    cases s with
    | block is c => exact .inl (by simpa [addImports, imports, importsOf] using h)
    | _ =>
      rw [addImports_eq rfl, imports_append, imports_added, List.mem_append] at h
      rcases h with h | h
      · obtain ⟨d, hd, rfl⟩ := List.mem_map.1 h
        exact .inr ⟨d, hd, rfl⟩
      · exact .inl h

/-- Where a statement of the pruned file has been. -/
theorem prune_split {U} : ∀ {l : List Stmt} {i : Nat} {pre s post}, NoLocal l →
    isImport s = false → pruneImports U i l = pre ++ s :: post →
    ∃ pre' post', l = pre' ++ s :: post' ∧ ∀ x, Imports post x → Imports post' x
  | [], _, pre, s, post, _, _, h => by simp [pruneImports] at h
  | a :: l, i, pre, s, post, hl, hs, h => by
    have hl' : NoLocal l := fun is c h => hl is c (List.mem_cons_of_mem _ h)
    simp only [pruneImports] at h
    have hone : ∀ t, pruneStmt U i a = [t] → isImport t = true ∨ t = a := by
      intro t ht
      cases a with
      | imp m names =>
        cases hp : pruneNames U i 0 names <;> simp [pruneStmt, hp] at ht
        subst ht; exact .inl rfl
      | block is c =>
        have := hl is c (List.mem_cons_self ..)
        subst this
        simp [pruneStmt] at ht
        exact .inr ht.symm
      | _ => simp [pruneStmt] at ht; exact .inr ht.symm
    have hcases : pruneStmt U i a = [] ∨ ∃ t, pruneStmt U i a = [t] := by
      cases a with
      | imp m names => cases hp : pruneNames U i 0 names <;> simp [pruneStmt, hp]
      | _ => simp [pruneStmt]
    rcases hcases with hc | ⟨t, hc⟩
    · rw [hc, List.nil_append] at h
      obtain ⟨p, q, rfl, hi⟩ := prune_split hl' hs h
      exact ⟨a :: p, q, rfl, hi⟩
    · rw [hc] at h
      cases pre with
      | nil =>
        simp at h
        obtain ⟨rfl, rfl⟩ := h
        rcases hone t hc with h | rfl
        · rw [h] at hs; cases hs
        · refine ⟨[], l, rfl, fun x ⟨e, he, hx⟩ => ⟨e, imports_prune_sub he, hx⟩⟩
      | cons b pre =>
        simp at h
        obtain ⟨rfl, h⟩ := h
        obtain ⟨p, q, rfl, hi⟩ := prune_split hl' hs h
        exact ⟨a :: p, q, rfl, hi⟩

theorem imports_times {l x} : Imports l x ↔ 0 < timesImported l x := by
  simp only [timesImported, List.length_pos_iff_exists_mem, List.mem_filter, beq_iff_eq, Imports]

end C107

/-- **C107** Everything else in the file stays as it is: for every file, all definitions and every
order, also inside of functions. -/
theorem C107_rest (refs : Stmt → List String) (defs : List (String × String)) (body : List Stmt)
    (order : List Occ) :
    (toSource refs defs order body).filterMap rest = body.filterMap rest := by
  simp only [toSource, C107.rest_prune, C107.rest_add]

/-- **C107** Names are imported only from where the file or the definitions have them: for every
file, all definitions and every order. -/
theorem C107_origin (refs : Stmt → List String) (defs : List (String × String)) (body : List Stmt)
    (order : List Occ) (module name x : String)
    (h : (module, name, x) ∈ imports (toSource refs defs order body)) :
    (module, name, x) ∈ imports body ∨ ((module, name) ∈ defs ∧ x = name) := by
  rcases C107.imports_add_sub (C107.imports_prune_sub h) with h | ⟨d, hd, e⟩
  · exact .inl h
  · simp only [Prod.mk.injEq] at e
    obtain ⟨rfl, rfl, rfl⟩ := e
    exact .inr ⟨hd, rfl⟩

/-- **C107** If the imports of the file stand before all uses of the names, this is so for the
saved file, and the imports which are added stand before the uses as well. -/
theorem C107_before_partial (refs : Stmt → List String) (defs : List (String × String))
    (body : List Stmt) (order : List Occ) (first : Stmt) (others : List Stmt)
    (hbody : body = first :: others) (hfirst : first.isSimple = true)
    (hlocal : NoLocal body) (htwice : NoneTwice body)
    (horder : order.Perm (occurrences 0 (addImports defs body)))
    (hbefore : ImportsFirst refs body) (pre : List Stmt) (s : Stmt) (post : List Stmt)
    (hsplit : toSource refs defs order body = pre ++ s :: post) (hs : isImport s = false)
    (x : String) (hx : x ∈ refs s) (hi : Importable defs x ∨ Imports body x) :
    Imports pre x ∧ ¬Imports post x := by
  have hb : addImports defs body = C107.added defs ++ body := by
    rw [hbody]; exact C107.addImports_eq hfirst
  have hsplit' := hsplit
  simp only [toSource, hb] at hsplit'
  obtain ⟨p, q, hpq, hq⟩ := C107.prune_split (C107.noLocal_added hlocal) hs hsplit'
  have hin : ∃ p', body = p' ++ s :: q := by
    rcases List.append_eq_append_iff.1 hpq with ⟨m, _, h2⟩ | ⟨m, h1, h2⟩
    · exact ⟨m, h2⟩
    · cases m with
      | nil => exact ⟨[], by simpa using h2.symm⟩
      | cons a m =>
        simp at h2
        obtain ⟨rfl, rfl⟩ := h2
        have : s ∈ C107.added defs := by rw [h1]; simp
        simp [C107.added] at this
        obtain ⟨a, b, _, rfl⟩ := this
        simp [isImport] at hs
  obtain ⟨p', hp'⟩ := hin
  have hn : ¬Imports post x := fun h => hbefore p' s q hp' hs x hx (hq x h)
  refine ⟨?_, hn⟩
  have hone := (C107_imported_partial refs defs body order first others hbody hfirst hlocal htwice
    horder x).1 ⟨s, by rw [hp']; simp, hs, hx⟩ hi
  rw [hsplit, C107.times_append] at hone
  have h0 : timesImported (s :: post) x = timesImported post x := by
    have : importsOf s = [] := by cases s <;> simp_all [importsOf, isImport]
    simp [timesImported, imports, this]
  rw [h0] at hone
  rw [C107.imports_times] at hn ⊢
  omega

/-- **C107** In particular, every public variable of `display.py` which is used in `inputs.py` is
imported there, for all of those files and whatever else can be imported. -/
theorem C107_display_partial (refs : Stmt → List String) (available : List (String × String))
    (display body : List Stmt) (order : List Occ) (first : Stmt) (others : List Stmt)
    (hbody : body = first :: others) (hfirst : first.isSimple = true)
    (hlocal : NoLocal body) (htwice : NoneTwice body)
    (horder : order.Perm (occurrences 0 (addImports (inputsImports available display) body)))
    (x : String) (hx : Spec.Editor.Sets display x) (hp : x.startsWith "_" = false)
    (hu : Uses refs body x) :
    timesImported (toSource refs (inputsImports available display) order body) x = 1 := by
  refine (C107_imported_partial refs _ body order first others hbody hfirst hlocal htwice horder
    x).1 hu (.inl ⟨("display", x), ?_, rfl⟩)
  obtain ⟨s, hs, ht⟩ := hx
  simp only [inputsImports, List.mem_append, List.mem_map]
  refine .inr ⟨x, ?_, rfl⟩
  simp only [publicAssigns, List.mem_flatMap]
  refine ⟨s, hs, ?_⟩
  cases s <;> simp_all [Spec.Editor.targets]

/-! ### Examples and what is missing -/

namespace C107

/-- `from m import A`, `from m import B as C`, `Inputs = [A, D]` -/
def file : List Stmt :=
  [.imp "m" [("A", "A"), ("B", "C")], .assign ["Inputs"] (.other "[A, D]")]

/-- The names occurring in the statements of the examples. -/
def refs : Stmt → List String
  | .assign _ (.other "[A, D]") => ["A", "D"]
  | .assign _ (.other "A") => ["A"]
  | .block _ "def f(): A" => ["A"]
  | _ => []

def defs : List (String × String) := [("m", "A"), ("n", "D"), ("n", "E")]

end C107

/-- The hypotheses of the theorems can be met; the used names are imported, the unused ones not. -/
example :
    C107.file = C107.file.headD (.simple "") :: C107.file.tail ∧
    (C107.file.headD (.simple "")).isSimple = true ∧ NoLocal C107.file ∧ NoneTwice C107.file ∧
    ImportsFirst C107.refs C107.file ∧
    (occurrences 0 (addImports C107.defs C107.file)).reverse.Perm
      (occurrences 0 (addImports C107.defs C107.file)) ∧
    toSource C107.refs C107.defs (occurrences 0 (addImports C107.defs C107.file)).reverse C107.file =
      [.imp "n" [("D", "D")], .imp "m" [("A", "A")], .assign ["Inputs"] (.other "[A, D]")] := by
  refine ⟨rfl, rfl, ?_, ?_, ?_, List.reverse_perm _, by decide +kernel⟩
  · intro is c h; simp [C107.file] at h
  · intro m n h
    simp [C107.file] at h
    obtain ⟨rfl, rfl⟩ := h
    decide
  · intro pre s post h hs x hx
    match pre, h with
    | [], h => simp [C107.file] at h; obtain ⟨rfl, rfl⟩ := h; simp [isImport] at hs
    | [a], h => simp [C107.file] at h; obtain ⟨_, rfl, rfl⟩ := h; simp [Imports, imports]
    | a :: b :: c, h => simp [C107.file] at h

/-- The same for `C107_display_partial`: the display has the variables `D` and `_P`. -/
example :
    let display : List Stmt := [.assign ["D"] (.other "1"), .assign ["_P"] (.other "2")]
    Spec.Editor.Sets display "D" ∧ ("D".startsWith "_") = false ∧ Uses C107.refs C107.file "D" ∧
    inputsImports [("m", "A")] display = [("m", "A"), ("display", "D")] :=
  ⟨by decide, by decide +kernel, ⟨.assign ["Inputs"] (.other "[A, D]"), by simp [C107.file], rfl,
    by simp [C107.refs]⟩, by decide +kernel⟩

/-- **C107** If the file begins with a function, a name which is used and can be imported is not
imported. -/
theorem C107_function_first :
    let body : List Stmt := [.block [] "def f(): pass", .assign ["Inputs"] (.other "[A, D]")]
    Uses C107.refs body "D" ∧ Importable C107.defs "D" ∧
    ∀ order : List Occ, order.Perm (occurrences 0 (addImports C107.defs body)) →
      timesImported (toSource C107.refs C107.defs order body) "D" = 0 := by
  refine ⟨⟨.assign ["Inputs"] (.other "[A, D]"), by simp, rfl, by simp [C107.refs]⟩,
    ⟨("n", "D"), by simp [C107.defs], rfl⟩, fun order _ => ?_⟩
  simp [toSource, addImports, pruneImports, pruneStmt, timesImported, imports, importsOf]

/-- **C107** If a function has an import of its own, the import of the same name on module level
can be removed, although it is used there. -/
theorem C107_function_import :
    let body : List Stmt := [.imp "m" [("A", "A")], .block [("m", [("A", "A")])] "def f(): A",
      .assign ["Inputs"] (.other "A")]
    Uses C107.refs body "A" ∧ timesImported body "A" = 1 ∧
    ∃ order : List Occ, order.Perm (occurrences 0 (addImports [] body)) ∧
      toSource C107.refs [] order body =
        [.block [("m", [("A", "A")])] "def f(): A", .assign ["Inputs"] (.other "A")] := by
  refine ⟨⟨.assign ["Inputs"] (.other "A"), by simp, rfl, by simp [C107.refs]⟩, by decide +kernel,
    [⟨1, 0, "A"⟩, ⟨0, 0, "A"⟩], ?_, by decide +kernel⟩
  have : occurrences 0 (addImports [] [.imp "m" [("A", "A")],
      .block [("m", [("A", "A")])] "def f(): A", .assign ["Inputs"] (.other "A")]) =
      [⟨0, 0, "A"⟩, ⟨1, 0, "A"⟩] := by decide +kernel
  rw [this]
  exact List.Perm.swap ..

/-- **C107** A name the user imports from a module of their own can be taken from the module of the
definitions instead. -/
theorem C107_other_module :
    let body : List Stmt := [.imp "own" [("A", "A")], .assign ["Inputs"] (.other "A")]
    ∃ order : List Occ, order.Perm (occurrences 0 (addImports [("m", "A")] body)) ∧
      toSource C107.refs [("m", "A")] order body =
        [.imp "m" [("A", "A")], .assign ["Inputs"] (.other "A")] :=
  ⟨_, List.Perm.refl _, by decide +kernel⟩

/-- **C107** If a statement imports something twice under one name, both are removed, although the
name is used. -/
theorem C107_twice :
    let body : List Stmt := [.imp "m" [("A", "A"), ("A", "A")], .assign ["Inputs"] (.other "A")]
    ∀ order : List Occ, order.Perm (occurrences 0 (addImports [] body)) →
      toSource C107.refs [] order body = [.assign ["Inputs"] (.other "A")] := by
  intro body order h
  have ho : occurrences 0 (addImports [] body) = List.replicate 2 ⟨0, 0, "A"⟩ := by decide +kernel
  rw [ho] at h
  rw [List.perm_replicate.1 h]
  decide +kernel

/-- **C107** If the file imports a name once more after it has been used, only the later import can
be left. -/
theorem C107_later :
    let body : List Stmt := [.imp "m" [("A", "A")], .assign ["Inputs"] (.other "A"),
      .imp "m" [("A", "A")]]
    ∃ order : List Occ, order.Perm (occurrences 0 (addImports [] body)) ∧
      toSource C107.refs [] order body = [.assign ["Inputs"] (.other "A"), .imp "m" [("A", "A")]] := by
  refine ⟨[⟨2, 0, "A"⟩, ⟨0, 0, "A"⟩], ?_, by decide +kernel⟩
  have : occurrences 0 (addImports [] [.imp "m" [("A", "A")], .assign ["Inputs"] (.other "A"),
      .imp "m" [("A", "A")]]) = [⟨0, 0, "A"⟩, ⟨2, 0, "A"⟩] := by decide +kernel
  rw [this]
  exact List.Perm.swap ..

end PySwitch.Props
