import Verif.Spec.Display
import Verif.Lemmas.Layout
namespace PySwitch.Layout
open PySwitch

theorem Elem.ind {P : Elem → Prop} (h0 : P .missing) (h1 : ∀ i cs, (∀ c ∈ cs, P c) → P (.node i cs)) : ∀ e, P e := by
  intro e
  refine Elem.rec (motive_1 := P) (motive_2 := fun cs => ∀ c ∈ cs, P c) h0 h1 ?_ ?_ e
  · intro c hc; simp at hc
  · intro c cs hc hcs x hx
    rcases List.mem_cons.1 hx with rfl | h
    · exact hc
    · exact hcs x h

theorem allInitialized_iff : ∀ cs : List Elem, allInitialized cs = true ↔ ∀ c ∈ cs, c.initialized = true := by
  intro cs
  induction cs with
  | nil => simp [allInitialized]
  | cons c cs ih => simp [allInitialized, ih]

theorem initAll_eq : ∀ cs : List Elem, initAll cs = cs.map (fun c => if c.initialized then c else c.init) := by
  intro cs
  induction cs with
  | nil => rfl
  | cons c cs ih => simp [initAll, ih]

theorem flatAll_eq : ∀ cs : List Elem, flatAll cs = (cs.map Elem.contentsFlat).flatten := by
  intro cs
  induction cs with
  | nil => rfl
  | cons c cs ih => simp [flatAll, ih]

theorem contains_iff (i : Info) (cs : List Elem) (x : Elem) :
    (Elem.node i cs).Contains x ↔ x = .node i cs ∨ ∃ c ∈ cs, c.Contains x := by
  constructor
  · intro h
    cases h with
    | self => exact .inl rfl
    | child _ _ c _ hc h => exact .inr ⟨c, hc, h⟩
  · rintro (rfl | ⟨c, hc, h⟩)
    · exact .self i cs
    · exact .child i cs c x hc h

theorem missing_contains (x : Elem) : ¬ Elem.missing.Contains x := by
  intro h; cases h

/-- A property of all elements of a tree, which may depend on whether the element has children. -/
def All (P : Info → Bool → Prop) (e : Elem) : Prop := ∀ i cs, e.Contains (.node i cs) → P i cs.isEmpty

theorem all_missing (P : Info → Bool → Prop) : All P .missing := fun _ _ h => absurd h (missing_contains _)

theorem all_node (P : Info → Bool → Prop) (i : Info) (cs : List Elem) :
    All P (.node i cs) ↔ P i cs.isEmpty ∧ ∀ c ∈ cs, All P c := by
  constructor
  · intro h
    refine ⟨h i cs (.self i cs), ?_⟩
    intro c hc j ds hx
    exact h j ds (.child i cs c _ hc hx)
  · rintro ⟨h1, h2⟩ j ds hx
    rcases (contains_iff i cs _).1 hx with h | ⟨c, hc, h⟩
    · cases h; exact h1
    · exact h2 c hc j ds h

theorem initialized_iff (e : Elem) : e.initialized = true ↔ All (fun i _ => i.flag = true) e := by
  induction e using Elem.ind with
  | h0 => simp [Elem.initialized, all_missing]
  | h1 i cs ih =>
    rw [all_node]
    simp only [Elem.initialized, Bool.and_eq_true, allInitialized_iff]
    constructor
    · rintro ⟨h1, h2⟩; exact ⟨h2, fun c hc => (ih c hc).1 (h1 c hc)⟩
    · rintro ⟨h1, h2⟩; exact ⟨fun c hc => (ih c hc).2 (h2 c hc), h1⟩

theorem init_initialized (e : Elem) : e.init.initialized = true := by
  induction e using Elem.ind with
  | h0 => rfl
  | h1 i cs ih =>
    simp only [Elem.init, Elem.initialized, Bool.and_true, allInitialized_iff, initAll_eq, List.mem_map]
    rintro c ⟨c', hc', rfl⟩
    by_cases h : c'.initialized = true
    · rw [if_pos h]; exact h
    · rw [if_neg h]; exact ih c' hc'

/-- The bookkeeping of initialisations: an element is marked iff `init` has been called, and without children only once. -/
def Counted (i : Info) (leaf : Bool) : Prop :=
  (i.flag = false → i.inits = 0) ∧ (i.flag = true → 1 ≤ i.inits) ∧ (leaf = true → i.inits ≤ 1)

theorem init_counted (e : Elem) : All Counted e → e.initialized = false → All Counted e.init := by
  induction e using Elem.ind with
  | h0 => intro h _; exact h
  | h1 i cs ih =>
    intro h hi
    rw [all_node] at h
    simp only [Elem.init]
    rw [all_node]
    refine ⟨?_, ?_⟩
    · refine ⟨by simp, by simp, ?_⟩
      intro hl
      simp only [initAll_eq, List.isEmpty_map] at hl
      have hcs : cs = [] := by simpa using hl
      subst hcs
      simp only [Elem.initialized, allInitialized, Bool.true_and] at hi
      have := h.1.1 hi
      simp [this]
    · intro c hc
      rw [initAll_eq, List.mem_map] at hc
      obtain ⟨c', hc', rfl⟩ := hc
      by_cases hini : c'.initialized = true
      · rw [if_pos hini]; exact h.2 c' hc'
      · rw [if_neg hini]; exact ih c' hc' (h.2 c' hc') (by simpa using hini)

theorem init_fresh (e : Elem) : All (fun i _ => i.flag = false ∧ i.inits = 0) e →
    All (fun i _ => i.flag = true ∧ i.inits = 1) e.init := by
  induction e using Elem.ind with
  | h0 => intro _; exact all_missing _
  | h1 i cs ih =>
    intro h
    rw [all_node] at h
    simp only [Elem.init]
    rw [all_node]
    refine ⟨by simp [h.1.2], ?_⟩
    intro c hc
    rw [initAll_eq, List.mem_map] at hc
    obtain ⟨c', hc', rfl⟩ := hc
    have hall := h.2 c' hc'
    cases c' with
    | missing => simp only [Elem.initialized, if_true]; exact all_missing _
    | node j ds =>
      have : (Elem.node j ds).initialized ≠ true := by
        intro hini
        have h1 := (initialized_iff _).1 hini j ds (.self j ds)
        have h2 := (hall j ds (.self j ds)).1
        simp only at h1
        rw [h1] at h2
        cases h2
      rw [if_neg this]
      exact ih _ hc' hall

theorem placeAll_length (d : Dir) (b : Bounds) (n : Nat) : ∀ (cs : List Elem) (k : Nat),
    (placeAll d b n k cs).length = cs.length := by
  intro cs
  induction cs with
  | nil => intro k; simp [placeAll]
  | cons c cs ih => intro k; cases c <;> simp [placeAll, ih]

theorem placeAll_isEmpty (d : Dir) (b : Bounds) (n k : Nat) (cs : List Elem) :
    (placeAll d b n k cs).isEmpty = cs.isEmpty := by
  have h := placeAll_length d b n cs k
  cases cs with
  | nil => simp [placeAll]
  | cons c cs =>
    cases hp : placeAll d b n k (c :: cs) with
    | nil => rw [hp] at h; simp at h
    | cons _ _ => rfl

theorem place_all (P : Info → Bool → Prop) (hP : ∀ i l b, P i l → P { i with bounds := b } l) (e : Elem) :
    All P e → ∀ b, All P (Elem.place b e) := by
  induction e using Elem.ind with
  | h0 => intro h b; simp only [Elem.place]; exact h
  | h1 i cs ih =>
    intro h b
    have h' := (all_node P i cs).1 h
    cases hs : i.split with
    | none =>
      have e : Elem.place b (.node i cs) = .node { i with bounds := b } cs := by simp [Elem.place, hs]
      rw [e, all_node]
      exact ⟨hP _ _ _ h'.1, h'.2⟩
    | some d =>
      have e : Elem.place b (.node i cs) = .node { i with bounds := b } (placeAll d b (cs.countP Elem.present) 0 cs) := by
        simp [Elem.place, hs]
      rw [e, all_node]
      refine ⟨?_, ?_⟩
      · rw [placeAll_isEmpty]; exact hP _ _ _ h'.1
      · intro c hc
        rcases placeAll_mem d b _ cs 0 c hc with rfl | ⟨j, c', hc', _, rfl⟩
        · exact all_missing _
        · exact ih c' hc' (h'.2 c' hc') _

theorem updateBounds_all (P : Info → Bool → Prop) (hP : ∀ i l b, P i l → P { i with bounds := b } l) (e : Elem)
    (h : All P e) : All P e.updateBounds := by
  cases e with
  | missing => exact h
  | node i cs =>
    have := place_all P hP _ h i.bounds
    simp only [Elem.updateBounds]
    simp only [Elem.place] at this
    cases hs : i.split with
    | none => exact h
    | some d =>
      rw [hs] at this
      simp only at this ⊢
      rw [← hs] at this
      exact this

theorem addAt_all (P : Info → Bool → Prop) (hP : ∀ i l b, P i l → P { i with bounds := b } l)
    (hL : ∀ i, P i true → P i false) (child : Elem) (hc : All P child) : ∀ (path : List Nat) (e : Elem),
    All P e → All P (Elem.addAt child path e) := by
  intro path
  induction path with
  | nil =>
    intro e he
    cases e with
    | missing => exact he
    | node i cs =>
      have he' := (all_node P i cs).1 he
      have h : All P (.node i (cs ++ [child])) := by
        rw [all_node]
        refine ⟨?_, ?_⟩
        · have : (cs ++ [child]).isEmpty = false := by simp
          rw [this]
          cases hcs : cs.isEmpty with
          | true => rw [hcs] at he'; exact hL i he'.1
          | false => rw [hcs] at he'; exact he'.1
        · intro c hmem
          rcases List.mem_append.1 hmem with h | h
          · exact he'.2 c h
          · simp only [List.mem_singleton] at h; rw [h]; exact hc
      simp only [Elem.addAt, Elem.add]
      cases hs : i.split with
      | none => exact h
      | some d => exact updateBounds_all P hP _ h
  | cons k path ih =>
    intro e he
    cases e with
    | missing => exact he
    | node i cs =>
      have he' := (all_node P i cs).1 he
      simp only [Elem.addAt]
      rw [all_node]
      refine ⟨?_, ?_⟩
      · have : (cs.modify k (Elem.addAt child path)).isEmpty = cs.isEmpty := by
          cases cs with
          | nil => simp
          | cons c cs => cases k <;> simp
        rw [this]
        exact he'.1
      · intro c hmem
        rcases mem_modify _ cs k c hmem with h | ⟨y, hy, rfl⟩
        · exact he'.2 c h
        · exact ih y (he'.2 y hy)

theorem mem_flat (x : Info) (e : Elem) : x ∈ e.contentsFlat ↔ ∃ cs, e.Contains (.node x cs) := by
  induction e using Elem.ind with
  | h0 => simp [Elem.contentsFlat, missing_contains]
  | h1 i cs ih =>
    simp only [Elem.contentsFlat, List.mem_cons, flatAll_eq, List.mem_flatten, List.mem_map, contains_iff]
    constructor
    · rintro (rfl | ⟨l, ⟨c, hc, rfl⟩, hx⟩)
      · exact ⟨cs, .inl rfl⟩
      · obtain ⟨ds, h⟩ := (ih c hc).1 hx
        exact ⟨ds, .inr ⟨c, hc, h⟩⟩
    · rintro ⟨ds, h | ⟨c, hc, h⟩⟩
      · cases h; exact .inl rfl
      · exact .inr ⟨_, ⟨c, hc, rfl⟩, (ih c hc).2 ⟨ds, h⟩⟩

theorem count_flat (x : Info) (e : Elem) : e.contentsFlat.count x = e.occurrences x := by
  induction e using Elem.ind with
  | h0 => rfl
  | h1 i cs ih =>
    have key : ∀ l : List Elem, (∀ c ∈ l, c ∈ cs) → (flatAll l).count x = occurrencesAll x l := by
      intro l
      induction l with
      | nil => intro _; rfl
      | cons c l ihl =>
        intro h
        simp only [flatAll, List.count_append, occurrencesAll]
        rw [ih c (h c (by simp)), ihl (fun y hy => h y (by simp [hy]))]
    simp only [Elem.contentsFlat, Elem.occurrences, List.count_cons, key cs (fun _ h => h)]
    by_cases h : i = x <;> simp [h, Nat.add_comm]

/-! ### Histories -/

theorem run_counted : ∀ (es : List UiEvent) (st : UiState), (∀ e ∈ st.roots, All Counted e) →
    (∀ k p c, UiEvent.add k p c ∈ es → All Counted c) → ∀ e ∈ (st.run es).roots, All Counted e := by
  intro es
  induction es with
  | nil => intro st h _; exact h
  | cons ev es ih =>
    intro st h hc
    refine ih (st.step ev) ?_ (fun k p c hm => hc k p c (by simp [hm]))
    cases ev with
    | «show» k =>
      simp only [UiState.step, UiState.show]
      by_cases hcur : st.current = some k
      · rw [if_pos hcur]; exact h
      · rw [if_neg hcur]
        cases hr : st.roots[k]? with
        | none => exact h
        | some e =>
          intro x hx
          simp only at hx
          have he := h e (List.mem_of_getElem? hr)
          rcases List.mem_or_eq_of_mem_set hx with hx | rfl
          · exact h x hx
          · by_cases hini : e.initialized = true
            · rw [if_pos hini]; exact he
            · rw [if_neg hini]; exact init_counted e he (by simpa using hini)
    | add k p c =>
      intro x hx
      simp only [UiState.step] at hx
      have hcc := hc k p c (by simp)
      rcases mem_modify _ st.roots k x hx with hx | ⟨y, hy, rfl⟩
      · exact h x hx
      · refine addAt_all Counted ?_ ?_ c hcc p y (h y hy)
        · intro i l b hp; exact hp
        · intro i hp; exact ⟨hp.1, hp.2.1, by simp⟩

/-- What is on the display is complete. -/
structure Complete (st : UiState) (k : Nat) : Prop where
  cur : st.current = some k
  disp : st.shown = some k
  tree : ∃ e, st.roots[k]? = some e ∧ e.initialized = true ∧
    st.updateables = (e.contentsFlat.filter (·.updateable)).map (·.id)

theorem show_complete (st : UiState) (k : Nat) (hk : k < st.roots.length) (h : ∀ c, st.current = some c → Complete st c) :
    Complete (st.show k) k := by
  unfold UiState.show
  by_cases hcur : st.current = some k
  · rw [if_pos hcur]; exact h k hcur
  · rw [if_neg hcur]
    have hr : st.roots[k]? = some st.roots[k] := List.getElem?_eq_getElem hk
    simp only [hr]
    refine ⟨rfl, rfl, _, by simp [hk], ?_, rfl⟩
    by_cases hini : st.roots[k].initialized = true
    · rw [if_pos hini]; exact hini
    · rw [if_neg hini]; exact init_initialized _

theorem show_length (st : UiState) (k : Nat) : (st.show k).roots.length = st.roots.length := by
  unfold UiState.show
  by_cases hcur : st.current = some k
  · rw [if_pos hcur]
  · rw [if_neg hcur]
    cases hr : st.roots[k]? <;> simp

theorem run_complete : ∀ (es : List UiEvent) (st : UiState), (∀ k, UiEvent.show k ∈ es → k < st.roots.length) →
    NoLateAdds st.current es → (∀ c, st.current = some c → Complete st c) →
    ∀ c, (st.run es).current = some c → Complete (st.run es) c := by
  intro es
  induction es with
  | nil => intro st _ _ h; exact h
  | cons ev es ih =>
    intro st hs hl h
    have hlen : (st.step ev).roots.length = st.roots.length := by
      cases ev with
      | «show» k => exact show_length st k
      | add k p c => simp [UiState.step]
    refine ih (st.step ev) ?_ ?_ ?_
    · intro k hk
      rw [hlen]
      exact hs k (by simp [hk])
    · cases ev with
      | «show» k =>
        have hc := show_complete st k (hs k (by simp)) h
        simp only [NoLateAdds] at hl
        simp only [UiState.step, hc.cur]
        exact hl
      | add k p c => exact hl.2
    · cases ev with
      | «show» k =>
        have hc := show_complete st k (hs k (by simp)) h
        intro c hcur
        simp only [UiState.step, hc.cur, Option.some.injEq] at hcur
        subst hcur
        exact hc
      | add k p ch =>
        intro c hcur
        have hcc := h c hcur
        have hne : k ≠ c := fun heq => hl.1 (by rw [heq]; exact hcur)
        obtain ⟨e, h1, h2, h3⟩ := hcc.tree
        refine ⟨hcur, hcc.disp, e, ?_, h2, h3⟩
        simp only [UiState.step]
        rw [List.getElem?_modify]
        simp [hne, h1]

end PySwitch.Layout
