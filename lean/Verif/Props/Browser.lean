import Verif.Spec.Browser
/-!
C158: The browser popup shows all useful entries in order, and each of them can be reached.
C159: The browser popup is opened where it was closed, and calls only what the user selects.
-/
namespace PySwitch.Props
open PySwitch.Browser PySwitch.Browser.Spec

/-! ### Addresses -/

theorem c158_below (e : Entry) (a : List Nat) (x : Entry) : Below e a x ↔ e.at a = some x := by
  constructor
  · intro h
    induction h with
    | here e => rfl
    | child e i c a x h _ ih => simp only [Entry.at, h]; exact ih
  · intro h
    induction a generalizing e with
    | nil => simp only [Entry.at, Option.some.injEq] at h; rw [h]; exact Below.here x
    | cons i a ih =>
      simp only [Entry.at] at h
      cases hc : e.children[i]? with
      | none => rw [hc] at h; cases h
      | some c => rw [hc] at h; exact Below.child e i c a x hc (ih c h)

theorem c158_at_append (e : Entry) (a b : List Nat) : e.at (a ++ b) = (e.at a).bind fun x => x.at b := by
  induction a generalizing e with
  | nil => rfl
  | cons i a ih =>
    simp only [List.cons_append, Entry.at]
    cases e.children[i]? with
    | none => rfl
    | some c => exact ih c

theorem c158_at_one (e : Entry) (i : Nat) : e.at [i] = e.children[i]? := by
  simp only [Entry.at]
  cases e.children[i]? <;> rfl

/-! ### Sorting -/

theorem c158_insert_perm {α : Type} (le : α → α → Bool) (x : α) (l : List α) : (insertBy le x l).Perm (x :: l) := by
  induction l with
  | nil => exact List.Perm.refl _
  | cons y l ih =>
    simp only [insertBy]
    split
    · exact List.Perm.refl _
    · exact (ih.cons y).trans (List.Perm.swap x y l)

theorem c158_sorted_perm {α : Type} (le : α → α → Bool) (l : List α) : (sorted le l).Perm l := by
  induction l with
  | nil => exact List.Perm.refl _
  | cons x l ih => exact (c158_insert_perm le x _).trans (ih.cons x)

theorem c158_insert_sorted {α : Type} (le : α → α → Bool) (tr : ∀ a b c, le a b = true → le b c = true → le a c = true)
    (to : ∀ a b, (le a b || le b a) = true) (x : α) (l : List α) (h : l.Pairwise (fun a b => le a b = true)) :
    (insertBy le x l).Pairwise (fun a b => le a b = true) := by
  induction l with
  | nil => simp [insertBy]
  | cons y l ih =>
    have h' := List.pairwise_cons.1 h
    simp only [insertBy]
    split
    · rename_i hxy
      refine List.pairwise_cons.2 ⟨fun z hz => ?_, h⟩
      rcases List.mem_cons.1 hz with rfl | hz
      · exact hxy
      · exact tr _ _ _ hxy (h'.1 z hz)
    · rename_i hxy
      refine List.pairwise_cons.2 ⟨fun z hz => ?_, ih h'.2⟩
      rcases List.mem_cons.1 ((c158_insert_perm le x l).mem_iff.1 hz) with rfl | hz
      · have := to y z
        rw [Bool.or_eq_true] at this
        exact this.resolve_right hxy
      · exact h'.1 z hz

theorem c158_sorted_sorted {α : Type} (le : α → α → Bool) (tr : ∀ a b c, le a b = true → le b c = true → le a c = true)
    (to : ∀ a b, (le a b || le b a) = true) (l : List α) : (sorted le l).Pairwise (fun a b => le a b = true) := by
  induction l with
  | nil => exact List.Pairwise.nil
  | cons x l ih => exact c158_insert_sorted le tr to x _ ih

theorem c158_insert_sublist {α : Type} (le : α → α → Bool) (x : α) (l : List α) : l.Sublist (insertBy le x l) := by
  induction l with
  | nil => exact List.nil_sublist _
  | cons y l ih =>
    simp only [insertBy]
    split
    · exact List.sublist_cons_self _ _
    · exact ih.cons_cons y

theorem c158_insert_first {α : Type} (le : α → α → Bool) (x b : α) (l : List α) (hb : b ∈ l) (h : le x b = true) : [x, b].Sublist (insertBy le x l) := by
  induction l with
  | nil => simp at hb
  | cons y l ih =>
    simp only [insertBy]
    split
    · exact (List.singleton_sublist.2 hb).cons_cons x
    · rename_i hxy
      rcases List.mem_cons.1 hb with rfl | hb
      · exact absurd h hxy
      · exact (ih hb).cons y

theorem c158_stable {α : Type} (le : α → α → Bool) (a b : α) (l : List α) (hl : [a, b].Sublist l) (h : le a b = true) :
    [a, b].Sublist (sorted le l) := by
  induction l with
  | nil => cases hl
  | cons x l ih =>
    cases hl with
    | cons _ hl => exact (ih hl).trans (c158_insert_sublist le x _)
    | cons_cons _ hl =>
      refine c158_insert_first le a b _ ?_ h
      exact (c158_sorted_perm le l).mem_iff.2 (List.singleton_sublist.1 hl)

/-! ### The list -/

theorem c158_zip (l : List Entry) (i : Nat) (c : Entry) : (i, c) ∈ (List.range l.length).zip l ↔ l[i]? = some c := by
  constructor
  · intro h
    obtain ⟨k, hk⟩ := List.mem_iff_getElem?.1 h
    rw [List.getElem?_zip_eq_some] at hk
    obtain ⟨h1, h2⟩ := hk
    have : k = i := by
      obtain ⟨_, h1⟩ := List.getElem?_eq_some_iff.1 h1
      simpa using h1
    rw [← this]; exact h2
  · intro h
    refine List.mem_iff_getElem?.2 ⟨i, ?_⟩
    rw [List.getElem?_zip_eq_some]
    have hi : i < l.length := (List.getElem?_eq_some_iff.1 h).1
    exact ⟨by rw [List.getElem?_eq_getElem (by simpa using hi)]; simp, h⟩

theorem c158_mem (o : Options) (e : Entry) (i : Nat) (c : Entry) : (i, c) ∈ listing o e ↔ e.children[i]? = some c ∧ Useful c := by
  unfold listing
  rw [(c158_sorted_perm _ _).mem_iff, List.mem_filter, c158_zip]
  refine and_congr_right fun _ => ?_
  unfold Useful
  cases c.children <;> cases c.onSelect <;> simp

theorem c158_two {α : Type} (l : List α) (i j : Nat) (x y : α) (hij : i < j) (hi : l[i]? = some x) (hj : l[j]? = some y) : [x, y].Sublist l := by
  induction l generalizing i j with
  | nil => simp at hi
  | cons z l ih =>
    cases j with
    | zero => omega
    | succ j =>
      cases i with
      | zero =>
        simp only [List.getElem?_cons_zero, Option.some.injEq] at hi
        rw [← hi]
        refine List.Sublist.cons_cons z (List.singleton_sublist.2 ?_)
        exact List.mem_of_getElem? (by simpa using hj)
      | succ i => exact (ih i j (by omega) (by simpa using hi) (by simpa using hj)).cons z

/-- The list has each child of the displayed entry with which something can be done, and nothing else: each just once. -/
theorem C158_items (o : Options) (e : Entry) :
    (∀ i c, (i, c) ∈ listing o e ↔ e.children[i]? = some c ∧ Useful c) ∧ ((listing o e).map Prod.fst).Nodup := by
  refine ⟨c158_mem o e, ?_⟩
  unfold listing
  have p := (c158_sorted_perm (fun x y => o.le x.2.sort y.2.sort)
    (((List.range e.children.length).zip e.children).filter fun x => !x.2.children.isEmpty || x.2.onSelect.isSome)).map Prod.fst
  rw [p.nodup_iff]
  refine List.Nodup.sublist ((List.filter_sublist).map _) ?_
  rw [List.map_fst_zip (by simp)]
  exact List.nodup_range

/-- The list is sorted; entries with the same text for sorting are in the order of the tree. -/
theorem C158_sorted (o : Options) (ho : Order o.le) (e : Entry) :
    (listing o e).Pairwise (fun x y => o.le x.2.sort y.2.sort = true) ∧
      ∀ i j a b, i < j → e.children[i]? = some a → e.children[j]? = some b → Useful a → Useful b → o.le a.sort b.sort = true →
        [(i, a), (j, b)].Sublist (listing o e) := by
  have tr : ∀ a b c : Nat × Entry, o.le a.2.sort b.2.sort = true → o.le b.2.sort c.2.sort = true → o.le a.2.sort c.2.sort = true :=
    fun a b c => ho.trans _ _ _
  have to : ∀ a b : Nat × Entry, (o.le a.2.sort b.2.sort || o.le b.2.sort a.2.sort) = true := fun a b => ho.total _ _
  refine ⟨c158_sorted_sorted _ tr to _, ?_⟩
  intro i j a b hij ha hb ua ub hab
  unfold listing
  refine c158_stable _ _ _ _ ?_ hab
  have hu : ∀ c : Entry, Useful c → (!c.children.isEmpty || c.onSelect.isSome) = true := by
    intro c h
    unfold Useful at h
    revert h
    cases c.children <;> cases c.onSelect <;> simp
  have hz : [(i, a), (j, b)].Sublist ((List.range e.children.length).zip e.children) := by
    have B : ∀ (n : Nat) (c : Entry), e.children[n]? = some c → ((List.range e.children.length).zip e.children)[n]? = some (n, c) := by
      intro n c h
      have hn : n < e.children.length := (List.getElem?_eq_some_iff.1 h).1
      rw [List.getElem?_zip_eq_some]
      exact ⟨by rw [List.getElem?_eq_getElem (by simpa using hn)]; simp, h⟩
    exact c158_two _ i j _ _ hij (B i a ha) (B j b hb)
  have := hz.filter fun x => !x.2.children.isEmpty || x.2.onSelect.isSome
  simpa [List.filter_cons, hu a ua, hu b ub] using this

/-! ### Where the popup is -/

/-- The popup shows an entry which is not callable, and remembers its path. -/
def c158_inv (s : State) : Prop :=
  (s.visible = true → s.lastPath ≠ none) ∧
    (s.lastPath ≠ none → s.lastPath = some (s.tree.path s.pos) ∧ ∃ e, s.tree.at s.pos = some e ∧ e.onSelect = none)

theorem c158_browse (o : Options) (s : State) (tree : Entry) (pos : List Nat) (h : c158_inv s) : c158_inv (s.browse o tree pos) := by
  unfold State.browse
  cases ha : tree.at pos with
  | none => exact h
  | some e =>
    dsimp only
    cases hk : e.onSelect with
    | some k =>
      refine ⟨fun hv => h.1 ?_, h.2⟩
      simp only [Bool.and_eq_true] at hv
      exact hv.1
    | none => exact ⟨fun _ => by simp, fun _ => ⟨rfl, e, ha, hk⟩⟩

theorem c158_step (o : Options) (s : State) (e : Ev) (h : c158_inv s) : c158_inv (s.step o e) := by
  cases e with
  | openTree tree => exact c158_browse o s _ _ h
  | click i =>
    simp only [State.step]
    split
    · split
      · exact c158_browse o s _ _ h
      · exact h
    · exact h
  | back =>
    simp only [State.step]
    split
    · exact c158_browse o s _ _ h
    · exact h
  | link n =>
    simp only [State.step]
    split
    · exact c158_browse o s _ _ h
    · exact h
  | close => exact ⟨fun hv => by simp [State.step] at hv, h.2⟩

theorem c158_reach (o : Options) (es : List Ev) : c158_inv (run o es) := by
  suffices H : ∀ (es : List Ev) (s : State), c158_inv s → c158_inv (es.foldl (State.step o) s) by
    exact H es _ ⟨by simp, by simp⟩
  intro es
  induction es with
  | nil => intro s h; exact h
  | cons e es ih => intro s h; exact ih _ (c158_step o s e h)

theorem c158_last (o : Options) (es : List Ev) (e : Ev) : run o (es ++ [e]) = (run o es).step o e := by simp [run]

theorem c158_shows (o : Options) (es : List Ev) (hv : (run o es).visible = true) :
    ∃ e, (run o es).tree.at (run o es).pos = some e ∧ e.onSelect = none ∧ (run o es).items o = listing o e := by
  obtain ⟨e, he, hn⟩ := ((c158_reach o es).2 ((c158_reach o es).1 hv)).2
  exact ⟨e, he, hn, by simp only [State.items, he]⟩

/-- Selecting an entry of the list: a folder is shown, with nothing called; an entry which is callable is called, once, and the popup is closed
unless it is to stay. -/
theorem C158_click (o : Options) (es : List Ev) (hv : (run o es).visible = true) (i j : Nat) (c : Entry)
    (hi : ((run o es).items o)[i]? = some (j, c)) :
    (run o es).tree.at ((run o es).pos ++ [j]) = some c ∧
      (∀ k, c.onSelect = some k → (run o (es ++ [.click i])).called = (run o es).called ++ [k] ∧ (run o (es ++ [.click i])).visible = o.stay ∧
        (run o (es ++ [.click i])).pos = (run o es).pos) ∧
      (c.onSelect = none → (run o (es ++ [.click i])).visible = true ∧ (run o (es ++ [.click i])).called = (run o es).called ∧
        (run o (es ++ [.click i])).tree = (run o es).tree ∧ (run o (es ++ [.click i])).pos = (run o es).pos ++ [j]) := by
  obtain ⟨e, he, hn, hl⟩ := c158_shows o es hv
  have hc : (run o es).tree.at ((run o es).pos ++ [j]) = some c := by
    rw [c158_at_append, he, Option.bind_some, c158_at_one]
    rw [hl] at hi
    exact ((c158_mem o e j c).1 (List.mem_of_getElem? hi)).1
  rw [c158_last]
  simp only [State.step, if_pos hv, hi, State.browse, hc]
  refine ⟨trivial, fun k hk => ?_, fun hk => ?_⟩
  · rw [hk]; exact ⟨rfl, by simp [hv], rfl⟩
  · rw [hk]; exact ⟨rfl, rfl, rfl, rfl⟩

theorem c158_folders_run (o : Options) (es : List Ev) (hf : AllFolders es) : Folders (run o es).tree := by
  have hb : ∀ (s : State) (tree : Entry) (pos : List Nat), Folders s.tree → Folders tree → Folders (s.browse o tree pos).tree := by
    intro s tree pos h1 h2
    unfold State.browse
    split
    · exact h1
    · split
      · exact h1
      · exact h2
  suffices H : ∀ (es : List Ev) (s : State), Folders s.tree → AllFolders es → Folders (es.foldl (State.step o) s).tree by
    refine H es _ ?_ hf
    intro a x hx hk
    rw [c158_below] at hx
    cases a with
    | nil => simp only [Entry.at, Option.some.injEq] at hx; rw [← hx] at hk; exact absurd rfl hk
    | cons i a => simp [Entry.at, Entry.children] at hx
  intro es
  induction es with
  | nil => intro s h _; exact h
  | cons e es ih =>
    intro s h hf
    refine ih _ ?_ fun tree ht => hf tree (List.mem_cons_of_mem _ ht)
    cases e with
    | openTree tree => exact hb s tree _ h (hf tree List.mem_cons_self)
    | click i =>
      simp only [State.step]
      split
      · split
        · exact hb s _ _ h h
        · exact h
      · exact h
    | back =>
      simp only [State.step]
      split
      · exact hb s _ _ h h
      · exact h
    | link n =>
      simp only [State.step]
      split
      · exact hb s _ _ h h
      · exact h
    | close => exact h

/-- An entry with something below is not callable. -/
theorem c158_above (e : Entry) (hf : Folders e) (a : List Nat) (j : Nat) (b : List Nat) (x : Entry) (h : e.at (a ++ j :: b) = some x) :
    ∃ y, e.at a = some y ∧ y.onSelect = none := by
  rw [c158_at_append] at h
  cases ha : e.at a with
  | none => rw [ha] at h; cases h
  | some y =>
    refine ⟨y, rfl, ?_⟩
    cases hk : y.onSelect with
    | none => rfl
    | some k =>
      have := hf a y ((c158_below e a y).2 ha) (by rw [hk]; simp)
      rw [ha, Option.bind_some] at h
      simp [Entry.at, this] at h

/-- The displayed path leads up: each of its entries is shown when selected, with nothing called. -/
theorem C158_link (o : Options) (es : List Ev) (hf : AllFolders es) (hv : (run o es).visible = true) (n : Nat) (hn : n ≤ (run o es).pos.length)
    (hp : (run o es).pos ≠ []) :
    (run o (es ++ [.link n])).visible = true ∧ (run o (es ++ [.link n])).pos = (run o es).pos.take n ∧
      (run o (es ++ [.link n])).tree = (run o es).tree ∧ (run o (es ++ [.link n])).called = (run o es).called := by
  obtain ⟨e, he, hk, -⟩ := c158_shows o es hv
  have hy : ∃ y, (run o es).tree.at ((run o es).pos.take n) = some y ∧ y.onSelect = none := by
    cases hd : (run o es).pos.drop n with
    | nil =>
      have : (run o es).pos.take n = (run o es).pos := by
        have := List.take_append_drop n (run o es).pos
        rw [hd, List.append_nil] at this
        exact this
      rw [this]; exact ⟨e, he, hk⟩
    | cons j b =>
      refine c158_above _ (c158_folders_run o es hf) _ j b e ?_
      rw [← hd, List.take_append_drop]; exact he
  obtain ⟨y, hy, hyk⟩ := hy
  rw [c158_last]
  simp only [State.step, if_pos (⟨hv, hp, hn⟩ : (run o es).visible = true ∧ (run o es).pos ≠ [] ∧ n ≤ (run o es).pos.length), State.browse, hy, hyk]
  exact ⟨trivial, trivial, trivial, trivial⟩

/-- C158. A closed popup does not react and calls nothing, until it is opened again. -/
theorem C158_closed (o : Options) (es later : List Ev) (hl : ∀ tree, Ev.openTree tree ∉ later) :
    (run o (es ++ .close :: later)).visible = false ∧ (run o (es ++ .close :: later)).called = (run o es).called := by
  have key : ∀ (later : List Ev) (s : State), (∀ tree, Ev.openTree tree ∉ later) → s.visible = false →
      (later.foldl (State.step o) s).visible = false ∧ (later.foldl (State.step o) s).called = s.called := by
    intro later
    induction later with
    | nil => intro s _ hs; exact ⟨hs, rfl⟩
    | cons e later ih =>
      intro s hl hs
      have hn : s.visible ≠ true := by rw [hs]; simp
      have hl' := fun tree h => hl tree (List.mem_cons_of_mem _ h)
      cases e with
      | openTree tree => exact absurd (List.mem_cons_self ..) (hl tree)
      | click i =>
        rw [List.foldl_cons]
        simp only [State.step, if_neg hn]
        exact ih s hl' hs
      | back =>
        rw [List.foldl_cons]
        simp only [State.step]
        rw [if_neg (fun h => hn h.1)]
        exact ih s hl' hs
      | link n =>
        rw [List.foldl_cons]
        simp only [State.step]
        rw [if_neg (fun h => hn h.1)]
        exact ih s hl' hs
      | close => exact ih _ hl' rfl
  unfold run
  rw [List.foldl_append, List.foldl_cons]
  exact key later _ hl rfl

/-- The button to go back leads one level up. -/
theorem C158_back (o : Options) (es : List Ev) (hf : AllFolders es) (hv : (run o es).visible = true) (a : List Nat) (j : Nat)
    (hp : (run o es).pos = a ++ [j]) :
    (run o (es ++ [.back])).visible = true ∧ (run o (es ++ [.back])).pos = a ∧ (run o (es ++ [.back])).tree = (run o es).tree ∧
      (run o (es ++ [.back])).called = (run o es).called := by
  have hne : (run o es).pos ≠ [] := by rw [hp]; simp
  have h := C158_link o es hf hv a.length (by rw [hp]; simp) hne
  have e : run o (es ++ [.back]) = run o (es ++ [.link a.length]) := by
    rw [c158_last, c158_last]
    simp only [State.step]
    rw [if_pos ⟨hv, hne⟩, if_pos ⟨hv, hne, by rw [hp]; simp⟩]
    rw [hp, List.dropLast_concat, List.take_left]
  rw [e]
  refine ⟨h.1, ?_, h.2.2⟩
  rw [h.2.1, hp, List.take_left]

/-- Each entry of a tree with which something can be done can be reached by selecting entries of the lists, from the first opening of the popup: it
is called, just this one, or shown. -/
theorem C158_reachable (o : Options) (tree : Entry) (hf : Folders tree) (hr : tree.onSelect = none) (a : List Nat) (x : Entry)
    (hx : Below tree a x) (hu : Useful x) :
    ∃ cs : List Nat, cs.length = a.length ∧ (x.onSelect = none → (run o (.openTree tree :: cs.map Ev.click)).visible = true ∧
        (run o (.openTree tree :: cs.map Ev.click)).pos = a ∧ (run o (.openTree tree :: cs.map Ev.click)).called = []) ∧
      ∀ k, x.onSelect = some k → (run o (.openTree tree :: cs.map Ev.click)).called = [k] := by
  suffices H : ∀ (r : List Nat) (x : Entry), tree.at r.reverse = some x → Useful x ∨ r = [] →
      ∃ cs : List Nat, cs.length = r.length ∧ (x.onSelect = none → (run o (.openTree tree :: cs.map Ev.click)).visible = true ∧
        (run o (.openTree tree :: cs.map Ev.click)).pos = r.reverse ∧ (run o (.openTree tree :: cs.map Ev.click)).tree = tree ∧
        (run o (.openTree tree :: cs.map Ev.click)).called = []) ∧
      ∀ k, x.onSelect = some k → (run o (.openTree tree :: cs.map Ev.click)).called = [k] by
    obtain ⟨cs, h1, h2, h3⟩ := H a.reverse x (by rw [List.reverse_reverse]; exact (c158_below tree a x).1 hx) (Or.inl hu)
    rw [List.reverse_reverse, List.length_reverse] at *
    exact ⟨cs, h1, fun h => ⟨(h2 h).1, (h2 h).2.1, (h2 h).2.2.2⟩, h3⟩
  intro r
  induction r with
  | nil =>
    intro x hx _
    simp only [List.reverse_nil, Entry.at, Option.some.injEq] at hx
    refine ⟨[], rfl, fun _ => ?_, fun k hk => ?_⟩
    · simp [run, State.step, State.browse, Entry.at, hr]
    · rw [← hx, hr] at hk; cases hk
  | cons j r ih =>
    intro x hx hu
    rw [List.reverse_cons] at hx ⊢
    have hu : Useful x := hu.resolve_right (by simp)
    obtain ⟨y, hy, hyk⟩ := c158_above tree hf r.reverse j [] x hx
    rw [c158_at_append, hy, Option.bind_some, c158_at_one] at hx
    have huy : Useful y ∨ r = [] := Or.inl (Or.inr (by intro he; rw [he] at hx; simp at hx))
    obtain ⟨cs, h1, h2, -⟩ := ih y hy huy
    obtain ⟨v1, v2, v3, v4⟩ := h2 hyk
    have hit : (run o (.openTree tree :: cs.map Ev.click)).items o = listing o y := by
      simp only [State.items, v2, v3, hy]
    obtain ⟨i, hi⟩ := List.mem_iff_getElem?.1 ((c158_mem o y j x).2 ⟨hx, hu⟩)
    rw [← hit] at hi
    obtain ⟨-, k1, k2⟩ := C158_click o _ v1 i j x hi
    refine ⟨cs ++ [i], by simp [h1], ?_, ?_⟩
    · intro hk
      obtain ⟨w1, w2, w3, w4⟩ := k2 hk
      rw [List.map_append, List.map_cons, List.map_nil, ← List.cons_append]
      exact ⟨w1, by rw [w4, v2], by rw [w3, v3], by rw [w2, v4]⟩
    · intro k hk
      rw [List.map_append, List.map_cons, List.map_nil, ← List.cons_append]
      rw [(k1 k hk).1, v4]; rfl

/-! ### Opening again -/

theorem c159_find (l : List Entry) (hn : (l.map Entry.text).Nodup) (i : Nat) (c : Entry) (h : l[i]? = some c) :
    l.findIdx? (fun d => d.text == c.text) = some i := by
  induction l generalizing i with
  | nil => simp at h
  | cons x l ih =>
    simp only [List.map_cons, List.nodup_cons] at hn
    cases i with
    | zero =>
      simp only [List.getElem?_cons_zero, Option.some.injEq] at h
      simp [List.findIdx?_cons, h]
    | succ i =>
      simp only [List.getElem?_cons_succ] at h
      have : x.text ≠ c.text := fun he => hn.1 (he ▸ List.mem_map.2 ⟨c, List.mem_of_getElem? h, rfl⟩)
      rw [List.findIdx?_cons, if_neg (by simpa using this), ih hn.2 i h]
      rfl

theorem c159_resolve (e : Entry) (hd : Distinct e) (a : List Nat) (x : Entry) (h : e.at a = some x) : e.resolve (e.path a) = a := by
  induction a generalizing e with
  | nil => rfl
  | cons i a ih =>
    cases hd with
    | mk _ hn hc =>
      simp only [Entry.at] at h
      simp only [Entry.path]
      cases hi : e.children[i]? with
      | none => rw [hi] at h; cases h
      | some c =>
        rw [hi] at h
        simp only [Entry.resolve, c159_find e.children hn i c hi, hi]
        rw [ih c (hc c (List.mem_of_getElem? hi)) h]

/-- The popup is opened again with a tree whose texts are unambiguous, and which still has a folder with the remembered path: this one is shown,
and nothing is called. (Partial: see the witnesses for ambiguous texts and for trees which do not have it any more.) -/
theorem C159_reopen_partial (o : Options) (es : List Ev) (hp : (run o es).lastPath ≠ none) (tree : Entry) (hd : Distinct tree) (a : List Nat) (x : Entry)
    (ha : Below tree a x) (hx : x.onSelect = none) (hpath : tree.path a = (run o es).tree.path (run o es).pos) :
    (run o (es ++ [.openTree tree])).visible = true ∧ (run o (es ++ [.openTree tree])).pos = a ∧
      (run o (es ++ [.openTree tree])).tree = tree ∧ (run o (es ++ [.openTree tree])).called = (run o es).called := by
  have hl := ((c158_reach o es).2 hp).1
  have ha := (c158_below tree a x).1 ha
  rw [c158_last]
  simp only [State.step, hl, ← hpath, c159_resolve tree hd a x ha, State.browse, ha, hx]
  exact ⟨trivial, trivial, trivial, trivial⟩

/-- So it is with the same tree. -/
theorem C159_same_partial (o : Options) (es : List Ev) (hp : (run o es).lastPath ≠ none) (hd : Distinct (run o es).tree) :
    (run o (es ++ [.openTree (run o es).tree])).visible = true ∧ (run o (es ++ [.openTree (run o es).tree])).pos = (run o es).pos ∧
      (run o (es ++ [.openTree (run o es).tree])).called = (run o es).called := by
  obtain ⟨-, x, hx, hk⟩ := (c158_reach o es).2 hp
  obtain ⟨h1, h2, -, h4⟩ := C159_reopen_partial o es hp _ hd _ x ((c158_below _ _ _).2 hx) hk rfl
  exact ⟨h1, h2, h4⟩

/-! ### Examples -/

/-- A tree as for loading: presets, examples in folders. -/
def c158_tree : Entry :=
  .mk "" "" none [.mk "Presets" "Presets" none [.mk "B" "B" (some 1) [], .mk "A" "A" (some 2) []], .mk "Empty" "Empty" none [],
    .mk "Examples" "Examples" none [.mk "Kemper" "Kemper" none [.mk "Default" "Default" (some 3) []]], .mk "Connect" "Connect" (some 4) []]

/-- The order of texts by their characters. -/
def c158_options : Options := { le := fun a b => decide (a ≤ b) }

example : (listing c158_options c158_tree).map Prod.fst = [3, 2, 0] ∧
    (run c158_options [.openTree c158_tree, .click 1, .click 0, .close, .openTree c158_tree]).pos = [2, 0] ∧
    (run c158_options [.openTree c158_tree, .click 1, .click 0, .click 0]).called = [3] ∧
    (run c158_options [.openTree c158_tree, .click 1, .click 0, .back, .back, .click 0]).called = [4] := by decide +kernel

example : (run c158_options ([.openTree c158_tree, .click 0] ++ .close :: [.click 0, .back])).visible = false :=
  (C158_closed _ _ _ (by simp)).1

example : Order c158_options.le := by
  refine ⟨fun a b => ?_, fun a b c h1 h2 => ?_⟩
  · simp only [c158_options, Bool.or_eq_true, decide_eq_true_eq]
    exact String.le_total a b
  · simp only [c158_options, decide_eq_true_eq] at h1 h2 ⊢
    exact String.le_trans h1 h2

/-! ### Disagreements -/

/-- Two entries with the same text, a folder and one which is callable: the folder is shown; when the popup is opened again, the other one is called,
although the user has not selected anything. -/
theorem C159_text_witness :
    let tree : Entry := .mk "" "" none [.mk "A" "1" (some 1) [], .mk "A" "2" none [.mk "B" "B" (some 2) []]]
    (run c158_options [.openTree tree, .click 1, .close]).pos = [1] ∧ (run c158_options [.openTree tree, .click 1, .close]).called = [] ∧
      (run c158_options [.openTree tree, .click 1, .close, .openTree tree]).called = [1] := by decide +kernel

/-- If a folder of the remembered path is gone, the search goes on with the rest of the path: it may find an entry elsewhere, and call it. -/
theorem C159_gone_witness :
    let before : Entry := .mk "" "" none [.mk "A" "A" none [.mk "B" "B" none [.mk "C" "C" (some 1) []]], .mk "B" "B" (some 2) []]
    let after : Entry := .mk "" "" none [.mk "B" "B" (some 2) []]
    (run c158_options [.openTree before, .click 0, .click 0, .close]).called = [] ∧
      (run c158_options [.openTree before, .click 0, .click 0, .close, .openTree after]).called = [2] := by decide +kernel

end PySwitch.Props
