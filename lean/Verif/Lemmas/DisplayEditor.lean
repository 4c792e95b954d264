import Verif.Spec.DisplayEditor

/-! Lemmas on the trees of the display editor. -/

namespace PySwitch.DisplayEditor

open PySwitch.Spec.DisplayEditor

/-! ### Lists of trees -/

theorem flattenAll_eq (l : List Tree) : flattenAll l = l.flatMap Tree.flatten := by
  induction l with
  | nil => rfl
  | cons t r ih => simp [flattenAll, ih]

theorem modifyAll_eq (f : Data → Data) (l : List Tree) : modifyAll f l = l.map (Tree.modify f) := by
  induction l with
  | nil => rfl
  | cons t r ih => simp [modifyAll, ih]

theorem rearrangeAll_eq (f : List Tree → List Tree) (l : List Tree) : rearrangeAll f l = l.map (Tree.rearrange f) := by
  induction l with
  | nil => rfl
  | cons t r ih => simp [rearrangeAll, ih]

theorem subtreesAll_eq (l : List Tree) : subtreesAll l = l.flatMap subtrees := by
  induction l with
  | nil => rfl
  | cons t r ih => simp [subtreesAll, ih]

theorem flatten_node (d : Data) (c : List Tree) : (Tree.node d c).flatten = d :: c.flatMap Tree.flatten := by
  rw [Tree.flatten, flattenAll_eq]

theorem modify_node (f : Data → Data) (d : Data) (c : List Tree) : (Tree.node d c).modify f = .node (f d) (c.map (Tree.modify f)) := by
  rw [Tree.modify, modifyAll_eq]

theorem rearrange_node (f : List Tree → List Tree) (d : Data) (c : List Tree) :
    (Tree.node d c).rearrange f = .node d (f (c.map (Tree.rearrange f))) := by
  rw [Tree.rearrange, rearrangeAll_eq]

theorem subtrees_node (d : Data) (c : List Tree) : subtrees (.node d c) = .node d c :: c.flatMap subtrees := by
  rw [subtrees, subtreesAll_eq]

/-- Induction over trees. -/
theorem Tree.ind {P : Tree → Prop} (h : ∀ d c, (∀ t ∈ c, P t) → P (.node d c)) : ∀ t, P t := by
  intro t
  refine Tree.rec (motive_1 := P) (motive_2 := fun l => ∀ t ∈ l, P t) ?_ ?_ ?_ t
  · intro d c hc; exact h d c hc
  · intro t ht; cases ht
  · intro t r ht hr x hx
    rcases List.mem_cons.1 hx with e | hx
    · rw [e]; exact ht
    · exact hr x hx

theorem node_eta (t : Tree) : t = .node t.data t.children := by cases t; rfl

theorem flatten_modify (f : Data → Data) (t : Tree) : (t.modify f).flatten = t.flatten.map f := by
  induction t using Tree.ind with
  | h d c ih =>
    rw [modify_node, flatten_node, flatten_node, List.map_cons, List.flatMap_map, List.map_flatMap]
    congr 1
    rw [List.flatMap_def, List.flatMap_def]
    congr 1
    apply List.map_congr_left
    intro t ht
    exact ih t ht

theorem modify_modify (f g : Data → Data) (t : Tree) : (t.modify f).modify g = t.modify (g ∘ f) := by
  induction t using Tree.ind with
  | h d c ih =>
    rw [modify_node, modify_node, modify_node, List.map_map]
    congr 1
    apply List.map_congr_left
    intro t ht
    exact ih t ht

theorem modify_congr (f g : Data → Data) (t : Tree) (h : ∀ d ∈ t.flatten, f d = g d) : t.modify f = t.modify g := by
  induction t using Tree.ind with
  | h d c ih =>
    rw [flatten_node] at h
    rw [modify_node, modify_node, h d (by simp)]
    congr 1
    apply List.map_congr_left
    intro t ht
    exact ih t ht fun x hx => h x (by simp only [List.mem_cons, List.mem_flatMap]; exact .inr ⟨t, ht, hx⟩)

theorem modify_id (t : Tree) : t.modify id = t := by
  induction t using Tree.ind with
  | h d c ih =>
    rw [modify_node]
    congr 1
    conv => rhs; rw [← List.map_id c]
    apply List.map_congr_left
    intro t ht
    exact ih t ht

theorem subtrees_modify (f : Data → Data) (t : Tree) : subtrees (t.modify f) = (subtrees t).map (Tree.modify f) := by
  induction t using Tree.ind with
  | h d c ih =>
    rw [modify_node, subtrees_node, subtrees_node, List.map_cons, modify_node, List.flatMap_map, List.map_flatMap]
    congr 1
    rw [List.flatMap_def, List.flatMap_def]
    congr 1
    apply List.map_congr_left
    intro t ht
    exact ih t ht

theorem data_modify (f : Data → Data) (t : Tree) : (t.modify f).data = f t.data := by cases t; rfl

theorem children_modify (f : Data → Data) (t : Tree) : (t.modify f).children = t.children.map (Tree.modify f) := by
  cases t; rw [modify_node]; rfl

theorem data_rearrange (f : List Tree → List Tree) (t : Tree) : (t.rearrange f).data = t.data := by cases t; rfl

theorem children_rearrange (f : List Tree → List Tree) (t : Tree) : (t.rearrange f).children = f (t.children.map (Tree.rearrange f)) := by
  cases t; rw [rearrange_node]; rfl

theorem data_mem_flatten (t : Tree) : t.data ∈ t.flatten := by
  cases t; rw [flatten_node]; simp [Tree.data]

theorem flatten_perm_of (f : List Tree → List Tree) (hf : ∀ l, (f l).Perm l) (t : Tree) : (t.rearrange f).flatten.Perm t.flatten := by
  induction t using Tree.ind with
  | h d c ih =>
    rw [rearrange_node, flatten_node, flatten_node]
    apply List.Perm.cons
    refine ((hf _).flatMap_right _).trans ?_
    rw [List.flatMap_map]
    clear hf
    induction c with
    | nil => simp
    | cons t r ih2 =>
      simp only [List.flatMap_cons]
      exact (ih t (by simp)).append (ih2 fun x hx => ih x (by simp [hx]))

theorem sublist_flatMap {l l' : List Tree} (h : l.Sublist l') (g : Tree → List Data) : (l.flatMap g).Sublist (l'.flatMap g) := by
  induction h with
  | slnil => simp
  | cons a _ ih => simp only [List.flatMap_cons]; exact ih.trans (List.sublist_append_right _ _)
  | cons_cons a _ ih => simp only [List.flatMap_cons]; exact (List.Sublist.refl _).append ih

theorem flatten_sublist_of (f : List Tree → List Tree) (hf : ∀ l, (f l).Sublist l) (t : Tree) : (t.rearrange f).flatten.Sublist t.flatten := by
  induction t using Tree.ind with
  | h d c ih =>
    rw [rearrange_node, flatten_node, flatten_node]
    apply List.Sublist.cons_cons
    refine (sublist_flatMap (hf _) _).trans ?_
    rw [List.flatMap_map]
    clear hf
    induction c with
    | nil => simp
    | cons t r ih2 =>
      simp only [List.flatMap_cons]
      exact (ih t (by simp)).append (ih2 fun x hx => ih x (by simp [hx]))

/-- Where the subtrees of a rearranged tree come from. -/
theorem subtrees_rearrange (f : List Tree → List Tree) (hf : ∀ l, ∀ t ∈ f l, t ∈ l) (t : Tree) :
    ∀ s ∈ subtrees (t.rearrange f), ∃ s0 ∈ subtrees t, s = s0.rearrange f := by
  induction t using Tree.ind with
  | h d c ih =>
    intro s hs
    rw [rearrange_node, subtrees_node, List.mem_cons] at hs
    rcases hs with h | h
    · exact ⟨.node d c, by rw [subtrees_node]; simp, by rw [rearrange_node]; exact h⟩
    · obtain ⟨x, hx, hs⟩ := List.mem_flatMap.1 h
      obtain ⟨y, hy, rfl⟩ := List.mem_map.1 (hf _ x hx)
      obtain ⟨s0, h0, e⟩ := ih y hy s hs
      exact ⟨s0, by rw [subtrees_node, List.mem_cons, List.mem_flatMap]; exact .inr ⟨y, hy, h0⟩, e⟩

/-- Nothing is lost by rearrangement. -/
theorem subtrees_rearrange' (f : List Tree → List Tree) (hf : ∀ l, ∀ t ∈ l, t ∈ f l) (t : Tree) :
    ∀ s ∈ subtrees t, s.rearrange f ∈ subtrees (t.rearrange f) := by
  induction t using Tree.ind with
  | h d c ih =>
    intro s hs
    rw [subtrees_node, List.mem_cons] at hs
    rw [rearrange_node, subtrees_node, List.mem_cons]
    rcases hs with h | h
    · left; rw [h, rearrange_node]
    · right
      obtain ⟨x, hx, hs⟩ := List.mem_flatMap.1 h
      exact List.mem_flatMap.2 ⟨x.rearrange f, hf _ _ (List.mem_map.2 ⟨x, hx, rfl⟩), ih x hx s hs⟩

theorem mem_flatten_iff (t : Tree) (d : Data) : d ∈ t.flatten ↔ ∃ s ∈ subtrees t, s.data = d := by
  induction t using Tree.ind with
  | h e c ih =>
    rw [flatten_node, subtrees_node]
    simp only [List.mem_cons, List.mem_flatMap]
    constructor
    · rintro (h | ⟨x, hx, h⟩)
      · exact ⟨_, .inl rfl, h.symm⟩
      · obtain ⟨s, hs, hd⟩ := (ih x hx).1 h
        exact ⟨s, .inr ⟨x, hx, hs⟩, hd⟩
    · rintro ⟨s, hs | ⟨x, hx, hs⟩, hd⟩
      · left; rw [← hd, hs]; rfl
      · exact .inr ⟨x, hx, (ih x hx).2 ⟨s, hs, hd⟩⟩

/-! ### Rearrangements of lists of siblings -/

theorem toFront_perm (id : Nat) (l : List Tree) : (toFront id l).Perm l := by
  simp only [toFront]
  refine List.perm_append_comm.trans ?_
  exact List.filter_append_perm _ _

theorem set_set_swap (l a b : List Tree) (x y : Tree) (h : l = a ++ x :: y :: b) :
    (l.set a.length y).set (a.length + 1) x = a ++ y :: x :: b := by
  subst h
  rw [List.set_append_right _ _ (Nat.le_refl _), Nat.sub_self, List.set_append_right _ _ (by omega)]
  simp

theorem split_at (l : List Tree) (i : Nat) (x y : Tree) (hx : l[i]? = some x) (hy : l[i + 1]? = some y) :
    ∃ a b, l = a ++ x :: y :: b ∧ a.length = i := by
  induction l generalizing i with
  | nil => simp at hx
  | cons t r ih =>
    cases i with
    | zero =>
      cases r with
      | nil => simp at hy
      | cons u r =>
        simp only [List.getElem?_cons_zero, Option.some.injEq, Nat.zero_add, List.getElem?_cons_succ] at hx hy
        subst hx; subst hy
        exact ⟨[], r, rfl, rfl⟩
    | succ i =>
      simp only [List.getElem?_cons_succ] at hx hy
      obtain ⟨a, b, h, hl⟩ := ih i hx hy
      exact ⟨t :: a, b, by rw [h]; rfl, by simp [hl]⟩

/-- What `moveUp` does. -/
theorem moveUp_cases (id : Nat) (l : List Tree) :
    (∃ a x y b, l = a ++ x :: y :: b ∧ x.data.id = id ∧ (∀ t ∈ a, t.data.id ≠ id) ∧ moveUp id l = a ++ y :: x :: b) ∨
    ((∀ t ∈ l.dropLast, t.data.id ≠ id) ∧ moveUp id l = l) := by
  unfold moveUp
  cases hi : l.findIdx? (isNode id) with
  | none =>
    right
    rw [List.findIdx?_eq_none_iff] at hi
    refine ⟨fun t ht => ?_, rfl⟩
    have := hi t (List.dropLast_subset l ht)
    simpa [isNode] using this
  | some i =>
    rw [List.findIdx?_eq_some_iff_getElem] at hi
    obtain ⟨hlt, hp, hb⟩ := hi
    simp only
    by_cases hc : i ≥ l.length - 1
    · right
      rw [if_pos hc]
      refine ⟨fun t ht => ?_, rfl⟩
      obtain ⟨j, hj, e⟩ := List.mem_iff_getElem.1 ht
      rw [List.length_dropLast] at hj
      have := hb j (by omega)
      rw [List.getElem_dropLast] at e
      rw [← e]
      simpa [isNode] using this
    · left
      rw [if_neg hc]
      have h1 : l[i]? = some l[i] := List.getElem?_eq_getElem hlt
      have h2 : l[i + 1]? = some (l[i + 1]'(by omega)) := List.getElem?_eq_getElem (by omega)
      rw [h1, h2]
      simp only
      obtain ⟨a, b, h, hl⟩ := split_at l i _ _ h1 h2
      refine ⟨a, _, _, b, h, by simpa [isNode] using hp, ?_, ?_⟩
      · intro t ht
        obtain ⟨j, hj, e⟩ := List.mem_iff_getElem.1 ht
        have := hb j (by omega)
        have e2 : l[j]'(by omega) = t := by
          have : l[j]? = some t := by
            rw [h, List.getElem?_append_left hj, List.getElem?_eq_getElem hj, e]
          rw [List.getElem?_eq_getElem (by omega)] at this
          simpa using this
        rw [e2] at this
        simpa [isNode] using this
      · have := set_set_swap l a b _ _ h
        rw [hl] at this
        exact this

theorem set_set_swap' (l a b : List Tree) (x y : Tree) (h : l = a ++ x :: y :: b) :
    (l.set (a.length + 1) x).set a.length y = a ++ y :: x :: b := by
  subst h
  rw [List.set_append_right _ _ (by omega), List.set_append_right _ _ (Nat.le_refl _), Nat.sub_self]
  simp

/-- What `moveDown` does. -/
theorem moveDown_cases (id : Nat) (l : List Tree) :
    (∃ a x y b, l = a ++ x :: y :: b ∧ y.data.id = id ∧ (∀ t ∈ a ++ [x], t.data.id ≠ id) ∧ moveDown id l = a ++ y :: x :: b) ∨
    ((∀ t ∈ l.tail, t.data.id = id → l.head?.map (·.data.id) = some id) ∧ moveDown id l = l) := by
  unfold moveDown
  cases hi : l.findIdx? (isNode id) with
  | none =>
    right
    rw [List.findIdx?_eq_none_iff] at hi
    refine ⟨fun t ht e => ?_, rfl⟩
    have := hi t (List.mem_of_mem_tail ht)
    exact absurd e (by simpa [isNode] using this)
  | some i =>
    rw [List.findIdx?_eq_some_iff_getElem] at hi
    obtain ⟨hlt, hp, hb⟩ := hi
    simp only
    by_cases hc : i = 0
    · right
      rw [if_pos hc]
      refine ⟨fun t ht e => ?_, rfl⟩
      subst hc
      rw [List.head?_eq_getElem?, List.getElem?_eq_getElem hlt]
      simpa [isNode] using hp
    · left
      rw [if_neg hc]
      obtain ⟨k, rfl⟩ : ∃ k, i = k + 1 := ⟨i - 1, by omega⟩
      have h1 : l[k + 1]? = some l[k + 1] := List.getElem?_eq_getElem hlt
      have h2 : l[k]? = some (l[k]'(by omega)) := List.getElem?_eq_getElem (by omega)
      rw [Nat.add_sub_cancel, h1, h2]
      simp only
      obtain ⟨a, b, h, hl⟩ := split_at l k _ _ h2 h1
      refine ⟨a, _, _, b, h, by simpa [isNode] using hp, ?_, ?_⟩
      · intro t ht
        obtain ⟨j, hj, e⟩ := List.mem_iff_getElem.1 ht
        have hj' : j < k + 1 := by simpa [hl] using hj
        have := hb j hj'
        have e2 : l[j]'(by omega) = t := by
          have : l[j]? = some t := by
            rw [h]
            rw [show a ++ l[k] :: l[k + 1] :: b = (a ++ [l[k]]) ++ l[k + 1] :: b by simp]
            rw [List.getElem?_append_left hj, List.getElem?_eq_getElem hj, e]
          rw [List.getElem?_eq_getElem (by omega)] at this
          simpa using this
        rw [e2] at this
        simpa [isNode] using this
      · have := set_set_swap' l a b _ _ h
        rw [hl] at this
        exact this

theorem swap_perm (a b : List Tree) (x y : Tree) : (a ++ y :: x :: b).Perm (a ++ x :: y :: b) :=
  List.Perm.append_left a (List.Perm.swap x y b)

theorem moveUp_perm (id : Nat) (l : List Tree) : (moveUp id l).Perm l := by
  rcases moveUp_cases id l with ⟨a, x, y, b, h, -, -, e⟩ | ⟨-, e⟩
  · rw [e, h]; exact swap_perm a b x y
  · rw [e]

theorem moveDown_perm (id : Nat) (l : List Tree) : (moveDown id l).Perm l := by
  rcases moveDown_cases id l with ⟨a, x, y, b, h, -, -, e⟩ | ⟨-, e⟩
  · rw [e, h]; exact swap_perm a b x y
  · rw [e]

/-- A leaf is removed without anything else. -/
theorem mem_removed (id : Nat) (t : Tree) (hl : ∀ s ∈ subtrees t, s.data.id = id → s.children = []) (d : Data) (hd : d ∈ t.flatten)
    (hn : d.id ≠ id) : d ∈ (t.rearrange (removeNode id)).flatten := by
  induction t using Tree.ind with
  | h e c ih =>
    rw [rearrange_node, flatten_node]
    rw [flatten_node] at hd
    simp only [List.mem_cons, List.mem_flatMap] at hd ⊢
    rcases hd with h | ⟨x, hx, h⟩
    · exact .inl h
    · right
      have hlx : ∀ s ∈ subtrees x, s.data.id = id → s.children = [] := fun s hs =>
        hl s (by rw [subtrees_node, List.mem_cons, List.mem_flatMap]; exact .inr ⟨x, hx, hs⟩)
      have := ih x hx hlx h
      refine ⟨x.rearrange (removeNode id), ?_, this⟩
      simp only [removeNode, List.mem_filter]
      refine ⟨List.mem_map.2 ⟨x, hx, rfl⟩, ?_⟩
      simp only [isNode, data_rearrange, Bool.not_eq_true', beq_eq_false_iff_ne]
      intro he
      have hc := hlx x (by rw [node_eta x, subtrees_node]; simp) he
      rw [node_eta x, flatten_node, hc] at h
      simp at h
      rw [h] at hn
      exact hn he

/-! ### Names -/

theorem label_inj (a b : Nat) (h : "DISPLAY_LABEL_" ++ toString a = "DISPLAY_LABEL_" ++ toString b) : a = b := by
  have h1 := congrArg String.toList h
  simp only [String.toList_append, List.append_cancel_left_eq] at h1
  have ha : ∀ n : Nat, (toString n).toList = Nat.toDigits 10 n := fun n => Nat.toList_repr
  rw [ha, ha] at h1
  have := congrArg (fun l => Nat.ofDigitChars 10 l 0) h1
  simpa only [Nat.ofDigitChars_ten_toDigits] using this

theorem freshName_form (names : List String) (fuel k : Nat) : ∃ n : Nat, freshName names fuel k = "DISPLAY_LABEL_" ++ toString n := by
  induction fuel generalizing k with
  | zero => exact ⟨k, rfl⟩
  | succ n ih =>
    simp only [freshName]
    split
    · exact ih (k + 1)
    · exact ⟨k, rfl⟩

/-- If the name is taken, all the names which were tried are. -/
theorem freshName_taken (names : List String) (fuel k : Nat) (h : freshName names fuel k ∈ names) :
    ∀ j : Nat, k ≤ j → j ≤ k + fuel → ("DISPLAY_LABEL_" ++ toString j) ∈ names := by
  induction fuel generalizing k with
  | zero =>
    intro j h1 h2
    have : j = k := by omega
    rw [this]; exact h
  | succ n ih =>
    intro j h1 h2
    simp only [freshName] at h
    split at h
    · rename_i hk
      by_cases hj : j = k
      · rw [hj]; exact hk
      · exact ih (k + 1) h j (by omega) (by omega)
    · contradiction

theorem freshName_new (names : List String) : freshName names names.length 1 ∉ names := by
  intro h
  have ht := freshName_taken names names.length 1 h
  have hsub : ∀ s ∈ (List.range (names.length + 1)).map (fun j => "DISPLAY_LABEL_" ++ toString (j + 1)), s ∈ names := by
    intro s hs
    obtain ⟨j, hj, rfl⟩ := List.mem_map.1 hs
    rw [List.mem_range] at hj
    exact ht (j + 1) (by omega) (by omega)
  have hnd : ((List.range (names.length + 1)).map (fun j => "DISPLAY_LABEL_" ++ toString (j + 1))).Nodup := by
    rw [List.nodup_iff_pairwise_ne, List.pairwise_map]
    refine List.Pairwise.imp ?_ (List.nodup_iff_pairwise_ne.1 List.nodup_range)
    intro a b hab e
    exact hab (by have := label_inj _ _ e; omega)
  have := List.Nodup.length_le_of_subset hnd hsub
  simp at this
  omega

end PySwitch.DisplayEditor
