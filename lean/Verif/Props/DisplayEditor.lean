import Verif.Lemmas.DisplayEditor

/-! C126: the display editor changes what it is told to, and nothing else. -/

namespace PySwitch.Props

open PySwitch.DisplayEditor PySwitch.Spec.DisplayEditor

namespace C126

/-- A state dot has its size. -/
def Settled (d : Data) : Prop := d.name = "BidirectionalProtocolState" → ∀ b, d.bounds = some b → b.w = 8 ∧ b.h = 8

theorem settled_eq (d : Data) (h : Settled d) : setupType d = d := by
  unfold setupType
  split
  · rename_i hn
    split
    · rfl
    · rename_i b hb
      rw [if_pos (h hn b hb)]
  · rfl

theorem round_eight : round 8 = 8 := by decide +kernel

theorem setupType_settled (d : Data) : Settled (setupType d) := by
  unfold setupType
  intro hn b hb
  split at hn
  · rename_i h
    rw [if_pos h] at hb
    cases hd : d.bounds with
    | none => rw [hd] at hb; simp only at hb; rw [hd] at hb; cases hb
    | some c =>
      rw [hd] at hb
      simp only at hb
      by_cases h8 : c.w = 8 ∧ c.h = 8
      · rw [if_pos h8] at hb
        rw [hd] at hb
        cases hb
        exact h8
      · rw [if_neg h8] at hb
        simp only [Option.some.injEq] at hb
        subst hb
        simp only [setModelBounds]
        have : round (if (8 : Rat) ≥ 1 then 8 else 1) = 8 := by decide +kernel
        exact ⟨this, this⟩
  · rename_i h
    exact absurd hn h

theorem setupType_same (d : Data) : (setupType d).id = d.id ∧ (setupType d).assign = d.assign ∧ (setupType d).container = d.container ∧
    (setupType d).name = d.name ∧ (setupType d).layout = d.layout ∧ (setupType d).args = d.args := by
  unfold setupType
  split
  · split
    · simp
    · split <;> simp
  · simp

theorem editable_setupType (d : Data) : editable (setupType d) = editable d := by
  simp only [editable, (setupType_same d).2.2.2.1]

theorem inj_of_nodup {l : List Data} (hn : (l.map (·.id)).Nodup) {x y : Data} (hx : x ∈ l) (hy : y ∈ l) (h : x.id = y.id) : x = y := by
  induction l with
  | nil => cases hx
  | cons a r ih =>
    rw [List.map_cons, List.nodup_cons] at hn
    rcases List.mem_cons.1 hx with ex | hx'
    · rcases List.mem_cons.1 hy with ey | hy'
      · rw [ex, ey]
      · exact absurd (List.mem_map.2 ⟨y, hy', by rw [← h, ex]⟩) hn.1
    · rcases List.mem_cons.1 hy with ey | hy'
      · exact absurd (List.mem_map.2 ⟨x, hx', by rw [h, ey]⟩) hn.1
      · exact ih hn.2 hx' hy'

theorem unique_of {root : Tree} (hn : (ids root).Nodup) {x y : Data} (hx : x ∈ root.flatten) (hy : y ∈ root.flatten) (h : x.id = y.id) : x = y :=
  inj_of_nodup hn hx hy h

/-- Changes of data keep a proper tree. -/
theorem proper_modify {root : Tree} {next : Nat} (h : Proper root next) (f : Data → Data) (hid : ∀ d, (f d).id = d.id)
    (hc : ∀ d, (f d).container = d.container) (he : ∀ d ∈ root.flatten, editable (f d) = true → d.container = false) :
    Proper (root.modify f) next := by
  have hi : ids (root.modify f) = ids root := by
    simp only [ids, flatten_modify, List.map_map]
    apply List.map_congr_left
    intro d _
    exact hid d
  refine ⟨by rw [hi]; exact h.distinct, by rw [hi]; exact h.fresh, ?_, ?_⟩
  · intro t ht hct
    rw [subtrees_modify] at ht
    obtain ⟨s, hs, rfl⟩ := List.mem_map.1 ht
    rw [data_modify, hc] at hct
    rw [children_modify, h.leaves s hs hct]
    rfl
  · intro d hd hed
    rw [flatten_modify] at hd
    obtain ⟨x, hx, rfl⟩ := List.mem_map.1 hd
    rw [hc]
    exact he x hx hed

/-- Other orders keep a proper tree. -/
theorem proper_rearrange {root : Tree} {next : Nat} (h : Proper root next) (f : List Tree → List Tree) (hf : ∀ l, (f l).Perm l) :
    Proper (root.rearrange f) next := by
  have hp := flatten_perm_of f hf root
  have hi : (ids (root.rearrange f)).Perm (ids root) := hp.map _
  refine ⟨hi.nodup_iff.2 h.distinct, fun i hx => h.fresh i (hi.mem_iff.1 hx), ?_, ?_⟩
  · intro t ht hct
    obtain ⟨s, hs, rfl⟩ := subtrees_rearrange f (fun l t ht => (hf l).mem_iff.1 ht) root t ht
    rw [data_rearrange] at hct
    rw [children_rearrange, h.leaves s hs hct, List.map_nil]
    exact (hf []).eq_nil
  · intro d hd he
    exact h.labels d (hp.mem_iff.1 hd) he

theorem remove_sublist (id : Nat) (l : List Tree) : (removeNode id l).Sublist l := List.filter_sublist

theorem proper_remove {root : Tree} {next : Nat} (h : Proper root next) (id : Nat) : Proper (root.rearrange (removeNode id)) next := by
  have hp := flatten_sublist_of (removeNode id) (remove_sublist id) root
  have hi : (ids (root.rearrange (removeNode id))).Sublist (ids root) := hp.map _
  refine ⟨hi.nodup h.distinct, fun i hx => h.fresh i (hi.mem hx), ?_, ?_⟩
  · intro t ht hct
    obtain ⟨s, hs, rfl⟩ := subtrees_rearrange _ (fun l t ht => (remove_sublist id l).mem ht) root t ht
    rw [data_rearrange] at hct
    rw [children_rearrange, h.leaves s hs hct]
    rfl
  · intro d hd he
    exact h.labels d (hp.mem hd) he

/-- The tree with a new label. -/
def added (root : Tree) (label : Data) : Tree := .node root.data (root.children ++ [.node label []])

theorem flatten_added (root : Tree) (label : Data) : (added root label).flatten = root.flatten ++ [label] := by
  cases root with
  | node d c => simp [added, flatten_node, Tree.data, Tree.children]

theorem subtrees_added (root : Tree) (label : Data) (t : Tree) (ht : t ∈ subtrees (added root label)) :
    t = added root label ∨ t ∈ subtrees root ∨ t = .node label [] := by
  cases root with
  | node d c =>
    simp only [added, subtrees_node, Tree.data, Tree.children, List.flatMap_append, List.flatMap_cons, List.flatMap_nil, List.append_nil,
      List.mem_cons, List.mem_append, List.not_mem_nil, or_false] at ht ⊢
    grind

theorem proper_added {root : Tree} {next : Nat} (h : Proper root next) (label : Data) (hid : label.id = next) (hc : label.container = false)
    (hr : root.data.container = true) : Proper (added root label) (next + 1) := by
  have hi : ids (added root label) = ids root ++ [next] := by simp [ids, flatten_added, hid]
  refine ⟨?_, ?_, ?_, ?_⟩
  · rw [hi, List.nodup_append]
    refine ⟨h.distinct, by simp, ?_⟩
    intro a ha b hb
    simp only [List.mem_singleton] at hb
    have := h.fresh a ha
    omega
  · intro i hx
    rw [hi, List.mem_append, List.mem_singleton] at hx
    rcases hx with hx | hx
    · have := h.fresh i hx; omega
    · omega
  · intro t ht hct
    rcases subtrees_added root label t ht with e | e | e
    · subst e
      simp only [added, Tree.data] at hct
      have : root.data.container = false := hct
      rw [hr] at this; cases this
    · exact h.leaves t e hct
    · subst e; rfl
  · intro d hd he
    rw [flatten_added, List.mem_append, List.mem_singleton] at hd
    rcases hd with hd | hd
    · exact h.labels d hd he
    · rw [hd]; exact hc

/-- What holds at any time. -/
structure Inv (kept : List Data) (e : Editor) : Prop where
  proper : Proper e.root e.next
  selected : ∀ id, e.selected = some id → ∀ d ∈ e.root.flatten, d.id = id → d.container = false
  kept : ∀ p ∈ kept, p.id ∈ e.referenced ∧ ∃ d ∈ e.root.flatten, d.id = p.id ∧ d.assign = p.assign
  settled : ∀ d ∈ e.root.flatten, Settled d

theorem inv_reset {used : List String} {kept : List Data} (hk : ∀ p ∈ kept, p.assign ≠ "" ∧ p.assign ∈ used) {e : Editor}
    (hp : Proper e.root e.next) (hkept : ∀ p ∈ kept, ∃ d ∈ e.root.flatten, d.id = p.id ∧ d.assign = p.assign) :
    Inv kept (e.reset used) := by
  have hs := setupType_same
  refine ⟨?_, ?_, ?_, ?_⟩
  · refine proper_modify hp setupType (fun d => (hs d).1) (fun d => (hs d).2.2.1) ?_
    intro d hd he
    rw [editable_setupType] at he
    exact hp.labels d hd he
  · intro id h; cases h
  · intro p hpk
    obtain ⟨d, hd, h1, h2⟩ := hkept p hpk
    have hd' : setupType d ∈ (e.root.modify setupType).flatten := by rw [flatten_modify]; exact List.mem_map.2 ⟨d, hd, rfl⟩
    refine ⟨?_, setupType d, hd', by rw [(hs d).1, h1], by rw [(hs d).2.1, h2]⟩
    simp only [Editor.reset, referencedNodes]
    refine List.mem_map.2 ⟨setupType d, List.mem_filter.2 ⟨hd', ?_⟩, by rw [(hs d).1, h1]⟩
    rw [(hs d).2.1, h2]
    simpa using hk p hpk
  · intro d hd
    simp only [Editor.reset, flatten_modify] at hd
    obtain ⟨x, -, rfl⟩ := List.mem_map.1 hd
    exact setupType_settled x

/-- Changes of the selected element which are no problem. -/
theorem inv_change {kept : List Data} {e : Editor} (h : Inv kept e) (f : Data → Data) (hid : ∀ d, (f d).id = d.id)
    (hc : ∀ d, (f d).container = d.container)
    (ha : ∀ id, e.selected = some id → id ∈ e.referenced → ∀ d, (f d).assign = d.assign)
    (hs : ∀ d, Settled d → Settled (f d)) : Inv kept (e.change f) := by
  unfold Editor.change
  split
  · exact h
  · rename_i id hsel
    have g1 : ∀ d : Data, (if d.id = id then f d else d).id = d.id := by intro d; split <;> simp [hid]
    have g2 : ∀ d : Data, (if d.id = id then f d else d).container = d.container := by intro d; split <;> simp [hc]
    refine ⟨?_, ?_, ?_, ?_⟩
    · refine proper_modify h.proper _ g1 g2 ?_
      intro d hd he
      split at he
      · rename_i hi
        exact h.selected id hsel d hd hi
      · exact h.proper.labels d hd he
    · intro id' h' d hd hdi
      rw [flatten_modify] at hd
      obtain ⟨x, hx, rfl⟩ := List.mem_map.1 hd
      rw [g2]
      rw [g1] at hdi
      exact h.selected id' h' x hx hdi
    · intro p hp
      obtain ⟨hr, d, hd, h1, h2⟩ := h.kept p hp
      refine ⟨hr, _, by rw [flatten_modify]; exact List.mem_map.2 ⟨d, hd, rfl⟩, by rw [g1, h1], ?_⟩
      split
      · rename_i hi
        rw [ha id hsel (by rw [← hi, h1]; exact hr), h2]
      · exact h2
    · intro d hd
      rw [flatten_modify] at hd
      obtain ⟨x, hx, rfl⟩ := List.mem_map.1 hd
      split
      · exact hs x (h.settled x hx)
      · exact h.settled x hx

theorem inv_order {kept : List Data} {e : Editor} (h : Inv kept e) (f : List Tree → List Tree) (hf : ∀ l, (f l).Perm l) :
    Inv kept { e with root := e.root.rearrange f } := by
  have hp := flatten_perm_of f hf e.root
  refine ⟨proper_rearrange h.proper f hf, fun id hs d hd => h.selected id hs d (hp.mem_iff.1 hd), ?_, fun d hd => h.settled d (hp.mem_iff.1 hd)⟩
  intro p hpk
  obtain ⟨hr, d, hd, h1, h2⟩ := h.kept p hpk
  exact ⟨hr, d, hp.mem_iff.2 hd, h1, h2⟩

theorem settled_of_name {d d' : Data} (h : Settled d) (hn : d'.name = d.name) (hb : d'.bounds = d.bounds) : Settled d' := by
  intro h1 b h2
  exact h (by rw [← hn]; exact h1) b (by rw [← hb]; exact h2)

theorem inv_step {used : List String} {kept : List Data} (hk : ∀ p ∈ kept, p.assign ≠ "" ∧ p.assign ∈ used) {e : Editor}
    (h : Inv kept e) (ev : Event) : Inv kept (e.step used ev) := by
  cases ev with
  | select id =>
    simp only [Editor.step]
    split
    · rename_i ha
      refine ⟨h.proper, ?_, h.kept, h.settled⟩
      intro id' e' d hd hdi
      simp only [Option.some.injEq] at e'
      subst e'
      rw [List.any_eq_true] at ha
      obtain ⟨x, hx, hxe⟩ := ha
      simp only [Bool.decide_and, Bool.and_eq_true, decide_eq_true_eq] at hxe
      have hxd : x = d := unique_of h.proper.distinct hx hd (by rw [hxe.1, hdi])
      subst hxd
      exact h.proper.labels x hx hxe.2
    · exact h
  | deselect =>
    refine ⟨h.proper, ?_, h.kept, h.settled⟩
    intro id e'; cases e'
  | place x y =>
    refine inv_change h _ ?_ ?_ ?_ ?_
    · intro d; simp only [place]; split <;> rfl
    · intro d; simp only [place]; split <;> rfl
    · intro _ _ _ d; simp only [place]; split <;> rfl
    · intro d hd
      simp only [place]
      split
      · exact hd
      · rename_i b hb
        intro h1 b' h2
        simp only [Option.some.injEq] at h2
        subst h2
        have := hd h1 b hb
        simp only [setModelBounds, this.1, this.2]
        have : round (if (((8 : Int) : Rat)) ≥ 1 then ((8 : Int) : Rat) else 1) = 8 := by decide +kernel
        exact ⟨this, this⟩
  | size w h' =>
    refine inv_change h _ ?_ ?_ ?_ ?_
    · intro d; simp only [resize]; split <;> (try split) <;> rfl
    · intro d; simp only [resize]; split <;> (try split) <;> rfl
    · intro _ _ _ d; simp only [resize]; split <;> (try split) <;> rfl
    · intro d hd
      simp only [resize]
      split
      · rename_i hr
        split
        · exact hd
        · intro h1
          exfalso
          simp only [resizable] at hr
          simp only at h1
          rw [h1] at hr
          revert hr
          decide
      · exact hd
  | toFront =>
    simp only [Editor.step]
    split
    · exact h
    · exact inv_order h _ (toFront_perm _)
  | up =>
    simp only [Editor.step]
    split
    · exact h
    · exact inv_order h _ (moveUp_perm _)
  | down =>
    simp only [Editor.step]
    split
    · exact h
    · exact inv_order h _ (moveDown_perm _)
  | rename text =>
    simp only [Editor.step]
    split
    · exact h
    · rename_i id hsel
      split
      · exact h
      · rename_i hn
        refine inv_change h _ (fun _ => rfl) (fun _ => rfl) ?_ (fun d hd => settled_of_name hd rfl rfl)
        intro id' e' hr
        rw [hsel] at e'
        cases e'
        exact absurd hr hn
  | setType name =>
    have hs := setupType_same
    refine inv_change h _ ?_ ?_ ?_ ?_
    · intro d; simp only [setType]; split
      · rfl
      · split
        · rfl
        · rw [(hs _).1]
    · intro d; simp only [setType]; split
      · rfl
      · split
        · rfl
        · rw [(hs _).2.2.1]
    · intro _ _ _ d; simp only [setType]; split
      · rfl
      · split
        · rfl
        · rw [(hs _).2.1]
    · intro d hd
      simp only [setType]
      split
      · exact hd
      · split
        · rename_i hb
          intro _ b h2
          simp only at h2
          rw [hb] at h2
          cases h2
        · exact setupType_settled _
  | argument name value =>
    exact inv_change h _ (fun _ => rfl) (fun _ => rfl) (fun _ _ _ _ => rfl) (fun d hd => settled_of_name hd rfl rfl)
  | layout name value =>
    refine inv_change h _ ?_ ?_ ?_ ?_
    · intro d; simp only [setLayout]; split <;> rfl
    · intro d; simp only [setLayout]; split <;> rfl
    · intro _ _ _ d; simp only [setLayout]; split <;> rfl
    · intro d hd; simp only [setLayout]; split
      · exact hd
      · exact settled_of_name hd rfl rfl
  | version =>
    refine inv_change h _ ?_ ?_ ?_ ?_
    · intro d; simp only [setVersion]; split <;> rfl
    · intro d; simp only [setVersion]; split <;> rfl
    · intro _ _ _ d; simp only [setVersion]; split <;> rfl
    · intro d hd; simp only [setVersion]; split
      · exact hd
      · exact settled_of_name hd rfl rfl
  | create =>
    simp only [Editor.step]
    split
    · rename_i hr
      generalize hl : newLabel e.next (freshName (e.root.flatten.map (·.assign)) (e.root.flatten.map (·.assign)).length 1) = label
      have hid : label.id = e.next := by rw [← hl]; rfl
      have hc : label.container = false := by rw [← hl]; rfl
      have hpa := proper_added h.proper label hid hc hr
      have hk' : ∀ p ∈ kept, ∃ d ∈ (added e.root label).flatten, d.id = p.id ∧ d.assign = p.assign := by
        intro p hp
        obtain ⟨-, d, hd, h1, h2⟩ := h.kept p hp
        exact ⟨d, by rw [flatten_added]; exact List.mem_append_left _ hd, h1, h2⟩
      have hi := inv_reset (used := used) hk (e := { e with root := added e.root label, next := e.next + 1 }) hpa hk'
      refine ⟨hi.proper, ?_, hi.kept, hi.settled⟩
      intro id e' d hd hdi
      simp only [Option.some.injEq] at e'
      subst e'
      have hd' : d ∈ ((added e.root label).modify setupType).flatten := hd
      rw [flatten_modify] at hd'
      obtain ⟨x, hx, rfl⟩ := List.mem_map.1 hd'
      rw [(setupType_same x).2.2.1]
      rw [(setupType_same x).1] at hdi
      rw [flatten_added, List.mem_append, List.mem_singleton] at hx
      rcases hx with hx | hx
      · have := h.proper.fresh x.id (List.mem_map.2 ⟨x, hx, rfl⟩)
        omega
      · rw [hx]; exact hc
    · exact h
  | remove =>
    simp only [Editor.step]
    split
    · exact h
    · rename_i id hsel
      split
      · exact inv_reset hk h.proper fun p hp => (h.kept p hp).2
      · split
        · exact h
        · rename_i hn
          refine inv_reset hk (proper_remove h.proper id) ?_
          intro p hp
          obtain ⟨hr, d, hd, h1, h2⟩ := h.kept p hp
          refine ⟨d, mem_removed id e.root ?_ d hd ?_, h1, h2⟩
          · intro s hs hsi
            exact h.proper.leaves s hs (h.selected id hsel s.data ((mem_flatten_iff _ _).2 ⟨s, hs, rfl⟩) hsi)
          · intro e'
            exact hn (by rw [← e', h1]; exact hr)
  | callback name =>
    simp only [Editor.step]
    split
    · exact h
    · exact inv_reset hk h.proper fun p hp => (h.kept p hp).2

theorem inv_init {used : List String} {root : Tree} {next : Nat} (h : Proper root next) (cb : String) :
    Inv (root.flatten.filter fun d => d.assign ≠ "" ∧ d.assign ∈ used) (init used root cb next) := by
  refine inv_reset ?_ h ?_
  · intro p hp
    simpa using (List.mem_filter.1 hp).2
  · intro p hp
    exact ⟨p, (List.mem_filter.1 hp).1, rfl, rfl⟩

theorem inv_run {used : List String} {kept : List Data} (hk : ∀ p ∈ kept, p.assign ≠ "" ∧ p.assign ∈ used) (events : List Event) {e : Editor}
    (h : Inv kept e) : Inv kept (e.run used events) := by
  induction events generalizing e with
  | nil => exact h
  | cons ev r ih => exact ih (inv_step hk h ev)

/-- Protected elements are used. -/
def Refs (used : List String) (e : Editor) : Prop := ∀ i ∈ e.referenced, ∀ d ∈ e.root.flatten, d.id = i → d.assign ≠ "" ∧ d.assign ∈ used

theorem refs_reset {used : List String} {e : Editor} (h : (ids (e.root.modify setupType)).Nodup) : Refs used (e.reset used) := by
  intro i hi d hd hdi
  simp only [Editor.reset, referencedNodes, List.mem_map, List.mem_filter] at hi
  obtain ⟨x, ⟨hx, hu⟩, rfl⟩ := hi
  have := unique_of h hd hx hdi
  subst this
  simpa using hu

theorem refs_change {used : List String} {e : Editor} (h : Refs used e) (f : Data → Data) (hid : ∀ d, (f d).id = d.id)
    (ha : ∀ id, e.selected = some id → id ∈ e.referenced → ∀ d, (f d).assign = d.assign) : Refs used (e.change f) := by
  unfold Editor.change
  split
  · exact h
  · rename_i id hsel
    intro i hi d hd hdi
    rw [flatten_modify] at hd
    obtain ⟨x, hx, rfl⟩ := List.mem_map.1 hd
    split at hdi
    · rename_i hxi
      rw [hid] at hdi
      rw [if_pos hxi, ha id hsel (by rw [← hxi, hdi]; exact hi)]
      exact h i hi x hx hdi
    · rename_i hxi
      rw [if_neg hxi]
      exact h i hi x hx hdi

/-- The element itself after a change: nothing but what is shown here matters. -/
theorem setType_same (name : String) (d : Data) : (setType name d).id = d.id ∧ (setType name d).assign = d.assign := by
  simp only [setType]
  split
  · exact ⟨rfl, rfl⟩
  · split
    · exact ⟨rfl, rfl⟩
    · exact ⟨(setupType_same _).1, (setupType_same _).2.1⟩

theorem place_same (x y : Rat) (d : Data) : (place x y d).id = d.id ∧ (place x y d).assign = d.assign := by
  simp only [place]; split <;> exact ⟨rfl, rfl⟩

theorem resize_same (x y : Rat) (d : Data) : (resize x y d).id = d.id ∧ (resize x y d).assign = d.assign := by
  simp only [resize]; split <;> (try split) <;> exact ⟨rfl, rfl⟩

theorem setLayout_same (n : String) (v : Option String) (d : Data) : (setLayout n v d).id = d.id ∧ (setLayout n v d).assign = d.assign := by
  simp only [setLayout]; split <;> exact ⟨rfl, rfl⟩

theorem setVersion_same (d : Data) : (setVersion d).id = d.id ∧ (setVersion d).assign = d.assign := by
  simp only [setVersion]; split <;> exact ⟨rfl, rfl⟩

/-- The root which is set up. -/
theorem nodup_setup {root : Tree} (h : (ids root).Nodup) : (ids (root.modify setupType)).Nodup := by
  have : ids (root.modify setupType) = ids root := by
    simp only [ids, flatten_modify, List.map_map]
    exact List.map_congr_left fun d _ => (setupType_same d).1
  rw [this]; exact h

theorem refs_order {used : List String} {e : Editor} (h : Refs used e) (f : List Tree → List Tree) (hf : ∀ l, (f l).Perm l) :
    Refs used { e with root := e.root.rearrange f } :=
  fun i hi d hd => h i hi d ((flatten_perm_of f hf e.root).mem_iff.1 hd)

theorem refs_step {used : List String} {kept : List Data} {e : Editor} (h : Inv kept e) (hr : Refs used e) (ev : Event) :
    Refs used (e.step used ev) := by
  cases ev with
  | select id => simp only [Editor.step]; split <;> exact hr
  | deselect => exact hr
  | place x y => exact refs_change hr _ (fun d => (place_same x y d).1) fun _ _ _ d => (place_same x y d).2
  | size x y => exact refs_change hr _ (fun d => (resize_same x y d).1) fun _ _ _ d => (resize_same x y d).2
  | toFront =>
    simp only [Editor.step]
    split
    · exact hr
    · exact refs_order hr _ (toFront_perm _)
  | up =>
    simp only [Editor.step]
    split
    · exact hr
    · exact refs_order hr _ (moveUp_perm _)
  | down =>
    simp only [Editor.step]
    split
    · exact hr
    · exact refs_order hr _ (moveDown_perm _)
  | rename text =>
    simp only [Editor.step]
    split
    · exact hr
    · rename_i id hsel
      split
      · exact hr
      · rename_i hn
        refine refs_change hr _ (fun _ => rfl) ?_
        intro id' e' h'
        rw [hsel] at e'
        cases e'
        exact absurd h' hn
  | setType name => exact refs_change hr _ (fun d => (setType_same name d).1) fun _ _ _ d => (setType_same name d).2
  | argument name value => exact refs_change hr _ (fun _ => rfl) fun _ _ _ _ => rfl
  | layout name value => exact refs_change hr _ (fun d => (setLayout_same name value d).1) fun _ _ _ d => (setLayout_same name value d).2
  | version => exact refs_change hr _ (fun d => (setVersion_same d).1) fun _ _ _ d => (setVersion_same d).2
  | create =>
    simp only [Editor.step]
    split
    · rename_i hc
      exact refs_reset (e := { e with root := added e.root _, next := e.next + 1 }) (nodup_setup (proper_added h.proper _ rfl rfl hc).distinct)
    · exact hr
  | remove =>
    simp only [Editor.step]
    split
    · exact hr
    · split
      · exact refs_reset (nodup_setup h.proper.distinct)
      · split
        · exact hr
        · exact refs_reset (nodup_setup (proper_remove h.proper _).distinct)
  | callback name =>
    simp only [Editor.step]
    split
    · exact hr
    · exact refs_reset (nodup_setup h.proper.distinct)

theorem keptOf (used : List String) (root : Tree) : ∀ p ∈ root.flatten.filter (fun d => d.assign ≠ "" ∧ d.assign ∈ used), p.assign ≠ "" ∧ p.assign ∈ used := by
  intro p hp
  simpa using (List.mem_filter.1 hp).2

theorem refs_run {used : List String} {kept : List Data} (hk : ∀ p ∈ kept, p.assign ≠ "" ∧ p.assign ∈ used) (events : List Event) {e : Editor}
    (h : Inv kept e) (hr : Refs used e) : Refs used (e.run used events) := by
  induction events generalizing e with
  | nil => exact hr
  | cons ev r ih => exact ih (inv_step hk h ev) (refs_step h hr ev)

theorem reach_inv {used : List String} {root : Tree} {next : Nat} {e : Editor} (h : Reachable used root next e) :
    Inv (root.flatten.filter fun d => d.assign ≠ "" ∧ d.assign ∈ used) e := by
  obtain ⟨hp, cb, events, rfl⟩ := h
  exact inv_run (keptOf used root) events (inv_init hp cb)

theorem reach_refs {used : List String} {root : Tree} {next : Nat} {e : Editor} (h : Reachable used root next e) : Refs used e := by
  obtain ⟨hp, cb, events, rfl⟩ := h
  exact refs_run (keptOf used root) events (inv_init hp cb) (refs_reset (nodup_setup hp.distinct))

/-- Something which holds of every root which comes up. -/
theorem root_ind {P : Tree → Prop} {used : List String} (hm : ∀ t f, P t → (∀ d, (f d).container = d.container) → P (t.modify f))
    (ho : ∀ t f, P t → (∀ l, (f l).Perm l) → P (t.rearrange f)) (hr : ∀ t id, P t → P (t.rearrange (removeNode id)))
    (ha : ∀ t d, P t → P (added t d)) (e : Editor) (h : P e.root) (ev : Event) : P (e.step used ev).root := by
  have hch : ∀ f : Data → Data, (∀ d, (f d).container = d.container) → P (e.change f).root := by
    intro f hf
    unfold Editor.change
    split
    · exact h
    · refine hm _ _ h ?_
      intro d; split <;> simp [hf]
  have hre : ∀ e : Editor, P e.root → P (e.reset used).root := by
    intro e h
    exact hm _ _ h fun d => (setupType_same d).2.2.1
  cases ev with
  | select id => simp only [Editor.step]; split <;> exact h
  | deselect => exact h
  | place x y => exact hch _ (by intro d; simp only [place]; split <;> rfl)
  | size x y => exact hch _ (by intro d; simp only [resize]; split <;> (try split) <;> rfl)
  | toFront => simp only [Editor.step]; split <;> first | exact h | exact ho _ _ h (toFront_perm _)
  | up => simp only [Editor.step]; split <;> first | exact h | exact ho _ _ h (moveUp_perm _)
  | down => simp only [Editor.step]; split <;> first | exact h | exact ho _ _ h (moveDown_perm _)
  | rename text =>
    simp only [Editor.step]
    split
    · exact h
    · split
      · exact h
      · exact hch _ fun _ => rfl
  | setType name =>
    refine hch _ ?_
    intro d; simp only [setType]; split
    · rfl
    · split
      · rfl
      · rw [(setupType_same _).2.2.1]
  | argument name value => exact hch _ fun _ => rfl
  | layout name value => exact hch _ (by intro d; simp only [setLayout]; split <;> rfl)
  | version => exact hch _ (by intro d; simp only [setVersion]; split <;> rfl)
  | create =>
    simp only [Editor.step]
    split
    · exact hre { e with root := added e.root _, next := e.next + 1 } (ha _ _ h)
    · exact h
  | remove =>
    simp only [Editor.step]
    split
    · exact h
    · split
      · exact hre _ h
      · split
        · exact h
        · exact hre _ (hr _ _ h)
  | callback name =>
    simp only [Editor.step]
    split
    · exact h
    · exact hre _ h

theorem root_run {P : Tree → Prop} {used : List String} (hm : ∀ t f, P t → (∀ d, (f d).container = d.container) → P (t.modify f))
    (ho : ∀ t f, P t → (∀ l, (f l).Perm l) → P (t.rearrange f)) (hr : ∀ t id, P t → P (t.rearrange (removeNode id)))
    (ha : ∀ t d, P t → P (added t d)) {root : Tree} {next : Nat} {e : Editor} (hre : Reachable used root next e) (h : P root) : P e.root := by
  obtain ⟨hp, cb, events, rfl⟩ := hre
  have h0 : P (init used root cb next).root := hm _ _ h fun d => (setupType_same d).2.2.1
  generalize init used root cb next = e0 at h0
  induction events generalizing e0 with
  | nil => exact h0
  | cons ev r ih => exact ih _ (root_ind hm ho hr ha e0 h0 ev)

theorem container_reachable {used : List String} {root : Tree} {next : Nat} {e : Editor} (h : Reachable used root next e)
    (hc : root.data.container = true) : e.root.data.container = true :=
  root_run (P := fun t => t.data.container = true) (fun t f h hf => by rw [data_modify, hf]; exact h) (fun t f h _ => by rw [data_rearrange]; exact h)
    (fun t id h => by rw [data_rearrange]; exact h) (fun t d h => h) h hc

theorem flat_reachable {used : List String} {root : Tree} {next : Nat} {e : Editor} (h : Reachable used root next e) (hf : Flat root) : Flat e.root := by
  refine root_run (P := Flat) ?_ ?_ ?_ ?_ h hf
  · intro t f h _ s hs
    rw [children_modify] at hs
    obtain ⟨x, hx, rfl⟩ := List.mem_map.1 hs
    rw [children_modify, h x hx]; rfl
  · intro t f h hp s hs
    rw [children_rearrange, (hp _).mem_iff] at hs
    obtain ⟨x, hx, rfl⟩ := List.mem_map.1 hs
    rw [children_rearrange, h x hx, List.map_nil]
    exact (hp []).eq_nil
  · intro t id h s hs
    rw [children_rearrange] at hs
    obtain ⟨x, hx, rfl⟩ := List.mem_map.1 ((remove_sublist id _).mem hs)
    rw [children_rearrange, h x hx]; rfl
  · intro t d h s hs
    simp only [added, Tree.children, List.mem_append, List.mem_singleton] at hs
    rcases hs with hs | rfl
    · exact h s (by cases t; exact hs)
    · rfl

theorem change_cases {used : List String} (e : Editor) (ev : Event) (h : isChange ev = true) :
    ∃ f : Data → Data, (∀ d, (f d).id = d.id) ∧ e.step used ev = e.change f := by
  cases ev with
  | place x y => exact ⟨_, fun d => (place_same x y d).1, rfl⟩
  | size x y => exact ⟨_, fun d => (resize_same x y d).1, rfl⟩
  | rename text =>
    simp only [Editor.step]
    split
    · rename_i hs
      exact ⟨id, fun _ => rfl, by simp [Editor.change, hs]⟩
    · rename_i i hs
      split
      · refine ⟨id, fun _ => rfl, ?_⟩
        simp only [Editor.change, hs, id_eq, ite_self]
        have := modify_id e.root
        cases e
        congr 1
        exact this.symm
      · exact ⟨fun d => { d with assign := cleanName text }, fun _ => rfl, rfl⟩
  | setType name => exact ⟨_, fun d => (setType_same name d).1, rfl⟩
  | argument name value => exact ⟨fun d => { d with args := setArg name value d.args }, fun _ => rfl, rfl⟩
  | layout name value => exact ⟨_, fun d => (setLayout_same name value d).1, rfl⟩
  | version => exact ⟨_, fun d => (setVersion_same d).1, rfl⟩
  | _ => cases h

theorem contains_modify (root : Tree) (f : Data → Data) (hid : ∀ d, (f d).id = d.id) (p : Nat) (c : List Nat) :
    Contains (root.modify f) p c ↔ Contains root p c := by
  simp only [Contains, subtrees_modify, List.mem_map]
  constructor
  · rintro ⟨_, ⟨t, ht, rfl⟩, h1, h2⟩
    refine ⟨t, ht, by rw [← h1, data_modify, hid], ?_⟩
    rw [← h2, children_modify, List.map_map]
    exact List.map_congr_left fun x _ => by simp [data_modify, hid]
  · rintro ⟨t, ht, h1, h2⟩
    refine ⟨_, ⟨t, ht, rfl⟩, by rw [data_modify, hid, h1], ?_⟩
    rw [← h2, children_modify, List.map_map]
    exact List.map_congr_left fun x _ => by simp [data_modify, hid]

theorem change_flatten (e : Editor) (id : Nat) (f : Data → Data) (h : e.selected = some id) :
    (e.change f).root.flatten = e.root.flatten.map fun d => if d.id = id then f d else d := by
  simp only [Editor.change, h, flatten_modify]

theorem round_nearest (x : Rat) : Nearest (round x) x := by
  have h1 := Rat.floor_le (a := x + 1 / 2)
  have h2 := Rat.lt_floor (x := x + 1 / 2)
  refine ⟨h1, ?_⟩
  have h3 : x + 1 / 2 - 1 < (round x : Rat) := h2
  grind

theorem round_int (n : Int) : round n = n := by
  have h := round_nearest (n : Rat)
  have h1 : ((round n : Int) : Rat) < ((n + 1 : Int) : Rat) := by
    rw [Rat.intCast_add]
    have := h.1
    have e : ((1 : Int) : Rat) = 1 := rfl
    grind
  have h2 : ((n : Int) : Rat) < ((round n + 1 : Int) : Rat) := by
    rw [Rat.intCast_add]
    have := h.2
    have e : ((1 : Int) : Rat) = 1 := rfl
    grind
  have h1 := Rat.intCast_lt_intCast.1 h1
  have h2 := Rat.intCast_lt_intCast.1 h2
  omega

theorem round_size (n : Int) : round (if (n : Rat) ≥ 1 then (n : Rat) else 1) = max 1 n := by
  have e : ((1 : Int) : Rat) = 1 := rfl
  split
  · rename_i h
    rw [round_int]
    rw [← e] at h
    have : (1 : Int) ≤ n := Rat.intCast_le_intCast.1 h
    omega
  · rename_i h
    rw [← e] at h ⊢
    rw [round_int]
    have : ¬ (1 : Int) ≤ n := fun h' => h (Rat.intCast_le_intCast.2 h')
    omega

theorem round_pos (w : Rat) : 1 ≤ round (if w ≥ 1 then w else 1) := by
  have h := round_nearest (if w ≥ 1 then w else 1)
  have h1 : (1 : Rat) ≤ (if w ≥ 1 then w else 1) := by split <;> grind
  have h2 : ((0 : Int) : Rat) < ((round (if w ≥ 1 then w else 1) : Int) : Rat) := by
    have := h.2
    have e : ((0 : Int) : Rat) = 0 := rfl
    grind
  have h2 := Rat.intCast_lt_intCast.1 h2
  omega

theorem flatten_sublist_subtree (t : Tree) : ∀ s ∈ subtrees t, s.flatten.Sublist t.flatten := by
  induction t using Tree.ind with
  | h d c ih =>
    intro s hs
    rw [subtrees_node, List.mem_cons] at hs
    rcases hs with rfl | hs
    · exact List.Sublist.refl _
    · obtain ⟨x, hx, hs⟩ := List.mem_flatMap.1 hs
      rw [flatten_node]
      refine (ih x hx s hs).trans (List.Sublist.cons _ ?_)
      exact List.sublist_flatten_of_mem (List.mem_map.2 ⟨x, hx, rfl⟩)

theorem heads_sublist (c : List Tree) : (c.map Tree.data).Sublist (c.flatMap Tree.flatten) := by
  induction c with
  | nil => simp
  | cons t r ih =>
    rw [List.map_cons, List.flatMap_cons, node_eta t, flatten_node]
    exact List.Sublist.cons_cons _ (ih.trans (List.sublist_append_right _ _))

theorem children_nodup {root : Tree} (h : (ids root).Nodup) {s : Tree} (hs : s ∈ subtrees root) : (s.children.map (·.data.id)).Nodup := by
  have h1 := flatten_sublist_subtree root s hs
  have h2 : (s.children.map Tree.data).Sublist s.flatten := by
    rw [node_eta s, flatten_node]
    exact List.Sublist.cons _ (heads_sublist _)
  have h3 := ((h2.trans h1).map Data.id).nodup h
  rwa [List.map_map] at h3

theorem raise_mid (id : Nat) (a b : List Nat) (y : Nat) (h : id ∉ a) : raise id (a ++ id :: y :: b) = a ++ y :: id :: b := by
  induction a with
  | nil => simp [raise]
  | cons x r ih =>
    have hx : x ≠ id := fun e => h (by simp [e])
    have hr : id ∉ r := fun e => h (by simp [e])
    cases r with
    | nil => simp [raise, hx]
    | cons z w => simp only [List.cons_append, raise, if_neg hx]; rw [← List.cons_append, ih hr]; rfl

theorem raise_not (id : Nat) (l : List Nat) (h : id ∉ l.dropLast) : raise id l = l := by
  induction l with
  | nil => rfl
  | cons a r ih =>
    cases r with
    | nil => rfl
    | cons b w =>
      rw [List.dropLast_cons_cons] at h
      have ha : a ≠ id := fun e => h (by simp [e])
      simp only [raise, if_neg ha]
      rw [ih fun e => h (List.mem_cons_of_mem _ e)]

theorem lower_mid (id : Nat) (a b : List Nat) (x : Nat) (h : id ∉ a ++ [x]) : lower id (a ++ x :: id :: b) = a ++ id :: x :: b := by
  induction a with
  | nil => simp [lower]
  | cons z r ih =>
    have hr : id ∉ r ++ [x] := fun e => h (List.mem_cons_of_mem _ e)
    cases r with
    | nil =>
      have hx : x ≠ id := fun e => h (by simp [e])
      simp [lower, hx]
    | cons u w =>
      have hu : u ≠ id := fun e => h (by simp [e])
      simp only [List.cons_append, lower, if_neg hu]
      rw [← List.cons_append, ih hr]; rfl

theorem lower_not (id : Nat) (l : List Nat) (h : id ∉ l.tail) : lower id l = l := by
  induction l with
  | nil => rfl
  | cons a r ih =>
    cases r with
    | nil => rfl
    | cons b w =>
      have hb : b ≠ id := fun e => h (by simp [e])
      simp only [lower, if_neg hb]
      rw [ih fun e => h (List.mem_cons_of_mem _ e)]

theorem ids_moveUp (id : Nat) (l : List Tree) : (moveUp id l).map (·.data.id) = raise id (l.map (·.data.id)) := by
  rcases moveUp_cases id l with ⟨a, x, y, b, h, hx, ha, e⟩ | ⟨h, e⟩
  · rw [e, h]
    simp only [List.map_append, List.map_cons, hx]
    rw [raise_mid]
    intro hm
    obtain ⟨t, ht, hti⟩ := List.mem_map.1 hm
    exact ha t ht hti
  · rw [e, raise_not]
    rw [← List.map_dropLast]
    intro hm
    obtain ⟨t, ht, hti⟩ := List.mem_map.1 hm
    exact h t ht hti

theorem ids_moveDown (id : Nat) (l : List Tree) (hn : (l.map (·.data.id)).Nodup) : (moveDown id l).map (·.data.id) = lower id (l.map (·.data.id)) := by
  rcases moveDown_cases id l with ⟨a, x, y, b, h, hy, ha, e⟩ | ⟨h, e⟩
  · rw [e, h]
    simp only [List.map_append, List.map_cons, hy]
    rw [lower_mid]
    intro hm
    have : id ∈ (a ++ [x]).map (·.data.id) := by simpa using hm
    obtain ⟨t, ht, hti⟩ := List.mem_map.1 this
    exact ha t ht hti
  · rw [e, lower_not]
    intro hm
    cases l with
    | nil => simp at hm
    | cons t r =>
      simp only [List.map_cons, List.tail_cons] at hm
      obtain ⟨u, hu, hui⟩ := List.mem_map.1 hm
      have := h u hu hui
      simp only [List.head?_cons, Option.map_some, Option.some.injEq] at this
      rw [List.map_cons, List.nodup_cons, this] at hn
      exact hn.1 hm

theorem ids_toFront (id : Nat) (l : List Tree) (hn : (l.map (·.data.id)).Nodup) : (toFront id l).map (·.data.id) = raiseAll id (l.map (·.data.id)) := by
  have e1 : (l.filter (!isNode id ·)).map (·.data.id) = (l.map (·.data.id)).filter (· ≠ id) := by
    rw [List.filter_map]
    congr 1
    apply List.filter_congr
    intro t _
    show (!(t.data.id == id)) = decide (t.data.id ≠ id)
    by_cases hh : t.data.id = id <;> simp [hh]
  have e2 : (l.filter (isNode id)).map (·.data.id) = (l.map (·.data.id)).filter (· = id) := by
    rw [List.filter_map]
    congr 1
  have e3 : ∀ m : List Nat, m.Nodup → m.filter (· = id) = if id ∈ m then [id] else [] := by
    intro m hm
    induction m with
    | nil => rfl
    | cons a r ih =>
      rw [List.nodup_cons] at hm
      rw [List.filter_cons, ih hm.2]
      by_cases ha : a = id
      · subst ha
        simp [hm.1]
      · have : ¬ id = a := fun e => ha e.symm
        simp [ha, this]
  have e4 : ∀ m : List Nat, id ∉ m → m.filter (· ≠ id) = m := by
    intro m hm
    rw [List.filter_eq_self]
    intro a ha
    simp only [decide_eq_true_eq]
    intro e; exact hm (e ▸ ha)
  rw [toFront, List.map_append, e1, e2, e3 _ hn, raiseAll]
  split
  · rfl
  · rename_i h
    rw [List.append_nil, e4 _ h]

/-- Containers after a change of the order. -/
theorem contains_rearrange {root : Tree} (hd : (ids root).Nodup) (f : List Tree → List Tree) (hf : ∀ l, (f l).Perm l) (g : List Nat → List Nat)
    (hg : ∀ l, (l.map (·.data.id)).Nodup → (f l).map (·.data.id) = g (l.map (·.data.id))) (p : Nat) (c : List Nat) (h : Contains root p c) :
    Contains (root.rearrange f) p (g c) := by
  obtain ⟨t, ht, h1, h2⟩ := h
  refine ⟨t.rearrange f, subtrees_rearrange' f (fun l t ht => (hf l).mem_iff.2 ht) root t ht, by rw [data_rearrange, h1], ?_⟩
  have e : (t.children.map (Tree.rearrange f)).map (·.data.id) = t.children.map (·.data.id) := by
    rw [List.map_map]
    exact List.map_congr_left fun x _ => by simp [data_rearrange]
  rw [children_rearrange, hg _ (by rw [e]; exact children_nodup hd ht), e, h2]

theorem settled_modify {root : Tree} (h : ∀ d ∈ root.flatten, Settled d) : root.modify setupType = root := by
  rw [modify_congr setupType id root fun d hd => settled_eq d (h d hd), modify_id]

theorem ident_label (n : Nat) : isIdentifier ("DISPLAY_LABEL_" ++ toString n) = true := by
  have e : ("DISPLAY_LABEL_" ++ toString n).toList = 'D' :: ("ISPLAY_LABEL_".toList ++ Nat.toDigits 10 n) := by
    rw [String.toList_append]
    have : (toString n).toList = Nat.toDigits 10 n := Nat.toList_repr
    rw [this]; rfl
  have hd : ∀ c ∈ Nat.toDigits 10 n, (c.isAlphanum || c == '_') = true := by
    intro c hc
    have := Nat.isDigit_of_mem_toDigits (by decide) (by decide) hc
    simp [Char.isAlphanum, this]
  simp only [isIdentifier, e, List.all_append, Bool.and_eq_true, List.all_eq_true]
  exact ⟨by decide, by decide, hd⟩

theorem label_ne_nil (n : Nat) : "DISPLAY_LABEL_" ++ toString n ≠ "" := by
  intro h
  have := congrArg String.toList h
  simp at this

theorem nodup_exports (l : List Data) (hn : (l.map (·.id)).Nodup) :
    (∀ d ∈ l, ∀ o ∈ l, o.id ≠ d.id → d.assign ≠ "" → o.assign ≠ d.assign) ↔ ((l.map (·.assign)).filter (· ≠ "")).Nodup := by
  induction l with
  | nil => simp
  | cons a r ih =>
    rw [List.map_cons, List.nodup_cons] at hn
    have ih := ih hn.2
    have hne : ∀ o ∈ r, o.id ≠ a.id := fun o ho e => hn.1 (List.mem_map.2 ⟨o, ho, e⟩)
    rw [List.map_cons, List.filter_cons]
    constructor
    · intro h
      have h2 := ih.1 fun d hd o ho => h d (by simp [hd]) o (by simp [ho])
      split
      · rename_i ha
        simp only [decide_eq_true_eq] at ha
        rw [List.nodup_cons]
        refine ⟨?_, h2⟩
        intro hm
        obtain ⟨hm, -⟩ := List.mem_filter.1 hm
        obtain ⟨o, ho, e⟩ := List.mem_map.1 hm
        exact h a (by simp) o (by simp [ho]) (hne o ho) ha e
      · exact h2
    · intro h
      have h2 : ((r.map (·.assign)).filter (· ≠ "")).Nodup := by
        split at h
        · exact (List.nodup_cons.1 h).2
        · exact h
      have h1 : a.assign ≠ "" → ∀ o ∈ r, o.assign ≠ a.assign := by
        intro ha o ho e
        rw [if_pos (by simpa using ha), List.nodup_cons] at h
        exact h.1 (List.mem_filter.2 ⟨List.mem_map.2 ⟨o, ho, e⟩, by simpa using ha⟩)
      have h3 := ih.2 h2
      intro d hd o ho hoi hda
      rcases List.mem_cons.1 hd with e | hd
      · rcases List.mem_cons.1 ho with e' | ho
        · exact absurd (by rw [e, e']) hoi
        · rw [e] at hda ⊢
          exact h1 hda o ho
      · rcases List.mem_cons.1 ho with e' | ho
        · intro e
          rw [e'] at e
          exact h1 (by rw [e]; exact hda) d hd e.symm
        · exact h3 d hd o ho hoi hda

theorem flat_flatten {root : Tree} (h : Flat root) : root.flatten = root.data :: root.children.map Tree.data := by
  cases root with
  | node d c =>
    rw [flatten_node]
    simp only [Tree.data, Tree.children]
    congr 1
    simp only [Flat, Tree.children] at h
    induction c with
    | nil => rfl
    | cons t r ih =>
      rw [List.flatMap_cons, List.map_cons, ih fun x hx => h x (by simp [hx])]
      have := h t (by simp)
      cases t with
      | node dt ct =>
        simp only at this
        subst this
        rfl

theorem canApply_flat {e : Editor} (h : Flat e.root) : e.canApply = true ↔ ∀ d ∈ e.root.flatten, hasErrors e.root d = false := by
  simp only [Editor.canApply, Bool.and_eq_true, List.all_eq_true, flat_flatten h]
  simp

theorem json_inj (t : Tree) : ∀ t' r r', t.json ++ r = t'.json ++ r' → anonymous t = anonymous t' ∧ r = r' := by
  induction t using Tree.ind with
  | h d c ih =>
    intro t' r r' h
    cases t' with
    | node d' c' =>
      simp only [Tree.json, List.cons_append, List.append_assoc, List.cons.injEq, Token.start.injEq] at h
      obtain ⟨hd, h⟩ := h
      have key : ∀ (c c' : List Tree) (s s' : List Token), (∀ t ∈ c, ∀ t' r r', t.json ++ r = t'.json ++ r' → anonymous t = anonymous t' ∧ r = r') →
          jsonAll c ++ (Token.stop :: s) = jsonAll c' ++ (Token.stop :: s') → c.map anonymous = c'.map anonymous ∧ s = s' := by
        intro c
        induction c with
        | nil =>
          intro c' s s' _ h
          cases c' with
          | nil => simpa [jsonAll] using h
          | cons t' w =>
            cases t'
            simp [jsonAll, Tree.json] at h
        | cons t w ihw =>
          intro c' s s' hc h
          cases c' with
          | nil => cases t; simp [jsonAll, Tree.json] at h
          | cons t' w' =>
            simp only [jsonAll, List.append_assoc] at h
            obtain ⟨h1, h2⟩ := hc t (by simp) t' _ _ h
            obtain ⟨h3, h4⟩ := ihw w' s s' (fun x hx => hc x (by simp [hx])) h2
            exact ⟨by rw [List.map_cons, List.map_cons, h1, h3], h4⟩
      obtain ⟨h1, h2⟩ := key c c' r r' ih (by simpa using h)
      refine ⟨?_, h2⟩
      simp only [anonymous, modify_node]
      rw [hd]
      congr 1

theorem json_anonymous (t : Tree) : t.json = (anonymous t).json := by
  induction t using Tree.ind with
  | h d c ih =>
    simp only [anonymous, modify_node, Tree.json]
    congr 2
    have : ∀ c : List Tree, (∀ t ∈ c, t.json = (anonymous t).json) → jsonAll c = jsonAll (c.map anonymous) := by
      intro c
      induction c with
      | nil => intro _; rfl
      | cons t r ihr => intro h; simp only [List.map_cons, jsonAll]; rw [← h t (by simp), ihr fun x hx => h x (by simp [hx])]
    exact this c ih

/-- No new shared layouts. -/
def LayoutsOf (before after : Tree) : Prop :=
  ∀ d ∈ after.flatten, ∀ l, d.layout = some l → l.assign = "" ∨ ∃ d' ∈ before.flatten, d'.layout = some l

theorem shared_of {before after : Tree} (h : Shared before) (hl : LayoutsOf before after) : Shared after := by
  intro d hd d' hd' l l' e e' hne heq
  rcases hl d hd l e with h0 | ⟨x, hx, ex⟩
  · exact absurd h0 hne
  · rcases hl d' hd' l' e' with h0 | ⟨x', hx', ex'⟩
    · exact absurd (heq.trans h0) hne
    · exact h x hx x' hx' l l' ex ex' hne heq

theorem layouts_modify (t : Tree) (f : Data → Data) (hf : ∀ d l, (f d).layout = some l → l.assign = "" ∨ d.layout = some l) : LayoutsOf t (t.modify f) := by
  intro d hd l hl
  rw [flatten_modify] at hd
  obtain ⟨x, hx, rfl⟩ := List.mem_map.1 hd
  rcases hf x l hl with h | h
  · exact .inl h
  · exact .inr ⟨x, hx, h⟩

theorem layouts_sub (t t' : Tree) (h : ∀ d ∈ t'.flatten, d ∈ t.flatten) : LayoutsOf t t' := fun d hd l hl => .inr ⟨d, h d hd, hl⟩

theorem shared_step {used : List String} {e : Editor} (h : Shared e.root) (ev : Event) (hv : ev ≠ .version) : Shared (e.step used ev).root := by
  have hch : ∀ f : Data → Data, (∀ d l, (f d).layout = some l → l.assign = "" ∨ d.layout = some l) → Shared (e.change f).root := by
    intro f hf
    unfold Editor.change
    split
    · exact h
    · refine shared_of h (layouts_modify _ _ ?_)
      intro d l hl
      split at hl
      · exact hf d l hl
      · exact .inr hl
  have hre : ∀ e : Editor, Shared e.root → Shared (e.reset used).root := by
    intro e h
    refine shared_of h (layouts_modify _ _ ?_)
    intro d l hl
    rw [(setupType_same d).2.2.2.2.1] at hl
    exact .inr hl
  cases ev with
  | select id => simp only [Editor.step]; split <;> exact h
  | deselect => exact h
  | place x y => exact hch _ (by intro d l hl; simp only [place] at hl; split at hl <;> exact .inr hl)
  | size x y =>
    refine hch _ ?_
    intro d l hl
    simp only [resize] at hl
    split at hl
    · split at hl <;> exact .inr hl
    · exact .inr hl
  | toFront =>
    simp only [Editor.step]
    split
    · exact h
    · exact shared_of h (layouts_sub _ _ fun d hd => (flatten_perm_of _ (toFront_perm _) _).mem_iff.1 hd)
  | up =>
    simp only [Editor.step]
    split
    · exact h
    · exact shared_of h (layouts_sub _ _ fun d hd => (flatten_perm_of _ (moveUp_perm _) _).mem_iff.1 hd)
  | down =>
    simp only [Editor.step]
    split
    · exact h
    · exact shared_of h (layouts_sub _ _ fun d hd => (flatten_perm_of _ (moveDown_perm _) _).mem_iff.1 hd)
  | rename text =>
    simp only [Editor.step]
    split
    · exact h
    · split
      · exact h
      · exact hch _ fun _ _ hl => .inr hl
  | setType name =>
    refine hch _ ?_
    intro d l hl
    simp only [setType] at hl
    split at hl
    · exact .inr hl
    · split at hl
      · exact .inr hl
      · rw [(setupType_same _).2.2.2.2.1] at hl
        simp only at hl
        split at hl
        · simp only [Option.some.injEq] at hl
          subst hl
          exact .inl rfl
        · cases hl
  | argument name value => exact hch _ fun _ _ hl => .inr hl
  | layout name value =>
    refine hch _ ?_
    intro d l hl
    simp only [setLayout] at hl
    split at hl
    · exact .inr hl
    · simp only [Option.some.injEq] at hl
      subst hl
      exact .inl rfl
  | version => exact absurd rfl hv
  | create =>
    simp only [Editor.step]
    split
    · refine hre { e with root := added e.root _, next := e.next + 1 } (shared_of h ?_)
      intro d hd l hl
      rw [flatten_added, List.mem_append, List.mem_singleton] at hd
      rcases hd with hd | rfl
      · exact .inr ⟨d, hd, hl⟩
      · simp only [newLabel, Option.some.injEq] at hl
        subst hl
        exact .inl rfl
    · exact h
  | remove =>
    simp only [Editor.step]
    split
    · exact h
    · split
      · exact hre _ h
      · split
        · exact h
        · exact hre _ (shared_of h (layouts_sub _ _ fun d hd => (flatten_sublist_of _ (remove_sublist _) _).mem hd))
  | callback name =>
    simp only [Editor.step]
    split
    · exact h
    · exact hre _ h

theorem shared_generated {root : Tree} (h : Shared root) (d : Data) (hd : d ∈ root.flatten) (l : Layout) (hl : d.layout = some l) :
    generatedLayout root l = l.args := by
  unfold generatedLayout
  split
  · rfl
  · rename_i hne
    split
    · rename_i l' hf
      have hm := List.mem_of_find?_eq_some hf
      have he := List.find?_some hf
      simp only [decide_eq_true_eq] at he
      rw [List.mem_reverse, List.mem_filterMap] at hm
      obtain ⟨d', hd', e'⟩ := hm
      exact (h d hd d' hd' l l' hl e' hne he.symm).symm
    · rfl

theorem dropWhile_mem {p : Char → Bool} (l : List Char) : ∀ c ∈ l.dropWhile p, c ∈ l := fun _ hc => (List.dropWhile_sublist p).mem hc

theorem cleanName_allowed (text : String) : ∀ c ∈ (cleanName text).toList, c.isAlphanum = true ∨ c = '_' := by
  intro c hc
  simp only [cleanName, String.toList_ofList] at hc
  obtain ⟨x, -, rfl⟩ := List.mem_map.1 (dropWhile_mem _ c hc)
  split
  · rename_i h
    simpa [allowedChar] using h
  · exact .inr rfl

theorem cleanName_head (text : String) : (cleanName text).toList.head? ≠ some '_' := by
  simp only [cleanName, String.toList_ofList]
  generalize text.toList.map _ = l
  intro h
  have := List.head?_dropWhile_not (· == '_') l
  rw [h] at this
  simp at this

theorem cleanName_self (text : String) (h1 : ∀ c ∈ text.toList, c.isAlphanum = true ∨ c = '_') (h2 : text.toList.head? ≠ some '_') :
    cleanName text = text := by
  unfold cleanName
  have e : text.toList.map (fun c => if allowedChar c then c else '_') = text.toList := by
    conv => rhs; rw [← List.map_id text.toList]
    apply List.map_congr_left
    intro c hc
    have : allowedChar c = true := by rcases h1 c hc with h | h <;> simp [allowedChar, h]
    rw [if_pos this]; rfl
  rw [e]
  cases hl : text.toList with
  | nil => rw [List.dropWhile_nil, ← hl, String.ofList_toList]
  | cons a r =>
    rw [hl] at h2
    have : (a == '_') = false := by
      rw [beq_eq_false_iff_ne]
      intro e'; exact h2 (by rw [e']; rfl)
    rw [List.dropWhile_cons_of_neg (by simp [this]), ← hl, String.ofList_toList]

end C126

open C126

/-- C126. An element whose name is used by an action of some input stays in the display, with its name, whatever is done in the editor. -/
theorem C126_used (used : List String) (root : Tree) (callback : String) (next : Nat) (h : Proper root next) (events : List Event) (d : Data)
    (hd : d ∈ root.flatten) (hn : d.assign ≠ "") (hu : d.assign ∈ used) :
    ∃ d' ∈ ((init used root callback next).run used events).root.flatten, d'.id = d.id ∧ d'.assign = d.assign :=
  ((inv_run (keptOf used root) events (inv_init h callback)).kept d (List.mem_filter.2 ⟨hd, by simp [hn, hu]⟩)).2

/-- C126. Moving, resizing, renaming an element or changing its type, arguments or layout leaves all other elements alone, as well as the order, the
selection and the callback. Without a selection, nothing happens. -/
theorem C126_others (used : List String) (e : Editor) (ev : Event) (h : isChange ev = true) :
    (∀ d, e.selected ≠ some d.id → (d ∈ (e.step used ev).root.flatten ↔ d ∈ e.root.flatten)) ∧
    (∀ p c, Contains (e.step used ev).root p c ↔ Contains e.root p c) ∧
    (e.step used ev).selected = e.selected ∧ (e.step used ev).callback = e.callback := by
  obtain ⟨f, hid, ef⟩ := change_cases (used := used) e ev h
  rw [ef]
  unfold Editor.change
  cases hs : e.selected with
  | none => exact ⟨fun d _ => Iff.rfl, fun p c => Iff.rfl, hs, rfl⟩
  | some id =>
    refine ⟨?_, fun p c => contains_modify _ _ (by intro d; split <;> simp [hid]) p c, rfl, rfl⟩
    intro d hd
    have hd : d.id ≠ id := fun e' => hd (by rw [e'])
    rw [flatten_modify, List.mem_map]
    constructor
    · rintro ⟨x, hx, e'⟩
      split at e'
      · rename_i hxi
        exact absurd (by rw [← e', hid, hxi]) hd
      · rw [← e']; exact hx
    · intro hx
      exact ⟨d, hx, by rw [if_neg hd]⟩

/-- C126. An element which is moved is placed where it was dropped, up to rounding, and keeps its size. -/
theorem C126_place (used : List String) (e : Editor) (d : Data) (hd : d ∈ e.root.flatten) (hs : e.selected = some d.id) (b : Bounds)
    (hb : d.bounds = some b) (x y : Rat) :
    ∃ b', { d with bounds := some b' } ∈ (e.step used (.place x y)).root.flatten ∧ Nearest b'.x x ∧ Nearest b'.y y ∧ b'.w = max 1 b.w ∧
      b'.h = max 1 b.h := by
  refine ⟨setModelBounds x y b.w b.h, ?_, round_nearest x, round_nearest y, round_size _, round_size _⟩
  simp only [Editor.step]
  rw [change_flatten e _ _ hs, List.mem_map]
  refine ⟨d, hd, ?_⟩
  rw [if_pos rfl]
  simp only [place, hb]

/-- C126. A label or tuner which is resized keeps its position and is never smaller than one pixel. -/
theorem C126_size (used : List String) (e : Editor) (d : Data) (hd : d ∈ e.root.flatten) (hs : e.selected = some d.id) (b : Bounds)
    (hb : d.bounds = some b) (hr : d.name = "DisplayLabel" ∨ d.name = "TunerDisplay") (w h : Rat) :
    ∃ b', { d with bounds := some b' } ∈ (e.step used (.size w h)).root.flatten ∧ b'.x = b.x ∧ b'.y = b.y ∧
      1 ≤ b'.w ∧ 1 ≤ b'.h ∧ (1 ≤ w → Nearest b'.w w) ∧ (1 ≤ h → Nearest b'.h h) ∧ (w < 1 → b'.w = 1) ∧ (h < 1 → b'.h = 1) := by
  have one : ∀ z : Rat, z < 1 → round (if z ≥ 1 then z else 1) = 1 := by
    intro z hz
    rw [if_neg (by grind)]
    exact round_int 1
  have near : ∀ z : Rat, 1 ≤ z → Nearest (round (if z ≥ 1 then z else 1)) z := by
    intro z hz
    rw [if_pos hz]
    exact round_nearest z
  refine ⟨setModelBounds b.x b.y w h, ?_, round_int _, round_int _, round_pos w, round_pos h, near w, near h, one w, one h⟩
  simp only [Editor.step]
  rw [change_flatten e _ _ hs, List.mem_map]
  refine ⟨d, hd, ?_⟩
  rw [if_pos rfl]
  have hr' : resizable d = true := by rcases hr with h | h <;> simp [resizable, h]
  simp only [resize, hb, if_pos hr']

/-- C126. The buttons for the depth move the selected element one step within its container, dragging it moves it to the front there; all other
elements keep their order, and no element is changed. -/
theorem C126_order (used : List String) (root : Tree) (next : Nat) (e : Editor) (hr : Reachable used root next e) (id : Nat)
    (hs : e.selected = some id) (p : Nat) (c : List Nat) (h : Contains e.root p c) :
    (Contains (e.step used .up).root p (raise id c) ∧ (e.step used .up).root.flatten.Perm e.root.flatten) ∧
    (Contains (e.step used .down).root p (lower id c) ∧ (e.step used .down).root.flatten.Perm e.root.flatten) ∧
    (Contains (e.step used .toFront).root p (raiseAll id c) ∧ (e.step used .toFront).root.flatten.Perm e.root.flatten) := by
  have hd := (reach_inv hr).proper.distinct
  simp only [Editor.step, hs]
  exact ⟨⟨contains_rearrange hd _ (moveUp_perm id) _ (fun l _ => ids_moveUp id l) p c h, flatten_perm_of _ (moveUp_perm id) _⟩,
    ⟨contains_rearrange hd _ (moveDown_perm id) _ (fun l hn => ids_moveDown id l hn) p c h, flatten_perm_of _ (moveDown_perm id) _⟩,
    ⟨contains_rearrange hd _ (toFront_perm id) _ (fun l hn => ids_toFront id l hn) p c h, flatten_perm_of _ (toFront_perm id) _⟩⟩

/-- C126. A new label is added on top of the others. It has a name which is not used so far and can be used in Python, and it is selected. All
other elements stay the same. -/
theorem C126_new (used : List String) (root : Tree) (next : Nat) (e : Editor) (hr : Reachable used root next e) (hc : root.data.container = true) :
    ∃ d, (e.step used .create).root.flatten = e.root.flatten ++ [d] ∧ d.name = "DisplayLabel" ∧ d.assign ∉ exports e.root ∧
      isIdentifier d.assign = true ∧ d.id ∉ ids e.root ∧ (e.step used .create).selected = some d.id ∧
      Contains (e.step used .create).root e.root.data.id (e.root.children.map (·.data.id) ++ [d.id]) := by
  have hi := reach_inv hr
  have hc := container_reachable hr hc
  have hn := freshName_new (e.root.flatten.map (·.assign))
  obtain ⟨n, hform⟩ := freshName_form (e.root.flatten.map (·.assign)) (e.root.flatten.map (·.assign)).length 1
  generalize hl : freshName (e.root.flatten.map (·.assign)) (e.root.flatten.map (·.assign)).length 1 = name at hn hform
  have er : (e.step used .create).root = added e.root (newLabel e.next name) := by
    simp only [Editor.step, if_pos hc, hl]
    refine settled_modify (root := added e.root (newLabel e.next name)) ?_
    intro d hd
    rw [flatten_added, List.mem_append, List.mem_singleton] at hd
    rcases hd with hd | rfl
    · exact hi.settled d hd
    · intro h
      exact absurd h (by simp [newLabel])
  refine ⟨newLabel e.next name, by rw [er, flatten_added], rfl, ?_, ?_, ?_, ?_, ?_⟩
  · intro h
    exact hn (List.mem_filter.1 h).1
  · show isIdentifier name = true
    rw [hform]
    exact ident_label n
  · intro h
    have := hi.proper.fresh _ h
    simp only [newLabel] at this
    omega
  · simp only [Editor.step, if_pos hc]
    rfl
  · rw [er]
    refine ⟨added e.root (newLabel e.next name), ?_, rfl, ?_⟩
    · simp only [added]; rw [subtrees_node]; exact List.mem_cons_self
    · simp [added, Tree.children, Tree.data]

/-- C126. An element which no action uses is removed, together with nothing else. -/
theorem C126_remove (used : List String) (root : Tree) (next : Nat) (e : Editor) (hr : Reachable used root next e) (d : Data)
    (hd : d ∈ e.root.flatten) (hs : e.selected = some d.id) (hu : d.assign = "" ∨ d.assign ∉ used) (h0 : d.id ≠ e.root.data.id) :
    (∀ x, x ∈ (e.step used .remove).root.flatten ↔ x ∈ e.root.flatten ∧ x ≠ d) ∧
    (∀ p c, p ≠ d.id → Contains e.root p c → Contains (e.step used .remove).root p (c.filter (· ≠ d.id))) := by
  have hi := reach_inv hr
  have hnr : d.id ∉ e.referenced := by
    intro h
    have := reach_refs hr d.id h d hd rfl
    rcases hu with hu | hu
    · exact this.1 hu
    · exact hu this.2
  have hsub := flatten_sublist_of (removeNode d.id) (remove_sublist d.id) e.root
  have er : (e.step used .remove).root = e.root.rearrange (removeNode d.id) := by
    simp only [Editor.step, hs, if_neg h0, if_neg hnr]
    exact settled_modify fun x hx => hi.settled x (hsub.mem hx)
  have hleaf : ∀ s ∈ subtrees e.root, s.data.id = d.id → s.children = [] := by
    intro s hs' hsi
    exact hi.proper.leaves s hs' (hi.selected d.id hs s.data ((mem_flatten_iff _ _).2 ⟨s, hs', rfl⟩) hsi)
  have hgone : ∀ t : Tree, t.data.id ≠ d.id → ∀ x ∈ (t.rearrange (removeNode d.id)).flatten, x.id ≠ d.id := by
    intro t
    induction t using Tree.ind with
    | h a c ih =>
      intro ha x hx
      rw [rearrange_node, flatten_node, List.mem_cons, List.mem_flatMap] at hx
      rcases hx with rfl | ⟨y, hy, hx⟩
      · exact ha
      · simp only [removeNode, List.mem_filter, isNode] at hy
        obtain ⟨hy, hyi⟩ := hy
        obtain ⟨z, hz, rfl⟩ := List.mem_map.1 hy
        rw [data_rearrange] at hyi
        exact ih z hz (by simpa using hyi) x hx
  rw [er]
  refine ⟨fun x => ⟨fun hx => ⟨hsub.mem hx, ?_⟩, fun ⟨hx, hxd⟩ => ?_⟩, ?_⟩
  · rintro rfl
    exact hgone e.root (fun h => h0 h.symm) x hx rfl
  · exact mem_removed d.id e.root hleaf x hx fun h => hxd (unique_of hi.proper.distinct hx hd h)
  · rintro p c hp ⟨t, ht, h1, h2⟩
    have keep : ∀ u : Tree, ∀ s ∈ subtrees u, (∀ s ∈ subtrees u, s.data.id = d.id → s.children = []) → s.data.id ≠ d.id →
        s.rearrange (removeNode d.id) ∈ subtrees (u.rearrange (removeNode d.id)) := by
      intro u
      induction u using Tree.ind with
      | h a w ih =>
        intro s hs' hl hsd
        rw [rearrange_node, subtrees_node, List.mem_cons]
        rw [subtrees_node, List.mem_cons] at hs'
        rcases hs' with rfl | hs'
        · left; rw [rearrange_node]
        · right
          obtain ⟨y, hy, hs'⟩ := List.mem_flatMap.1 hs'
          have hly : ∀ s ∈ subtrees y, s.data.id = d.id → s.children = [] := by
            intro s hs2
            exact hl s (by rw [subtrees_node]; exact List.mem_cons_of_mem _ (List.mem_flatMap.2 ⟨y, hy, hs2⟩))
          refine List.mem_flatMap.2 ⟨y.rearrange (removeNode d.id), List.mem_filter.2 ⟨List.mem_map.2 ⟨y, hy, rfl⟩, ?_⟩, ih y hy s hs' hly hsd⟩
          simp only [isNode, data_rearrange]
          by_cases hyi : y.data.id = d.id
          · exfalso
            have hyself : y ∈ subtrees y := by rw [node_eta y, subtrees_node]; exact List.mem_cons_self
            have hc := hly y hyself hyi
            have : s = y := by
              rw [node_eta y, hc, subtrees_node] at hs'
              simp only [List.flatMap_nil, List.mem_singleton] at hs'
              rw [hs', ← hc, ← node_eta]
            exact hsd (by rw [this, hyi])
          · simpa using hyi
    refine ⟨_, keep e.root t ht hleaf (by rw [h1]; exact hp), by rw [data_rearrange, h1], ?_⟩
    have e1 : ∀ l : List Tree, (removeNode d.id (l.map (Tree.rearrange (removeNode d.id)))).map (·.data.id) = (l.map (·.data.id)).filter (· ≠ d.id) := by
      intro l
      induction l with
      | nil => rfl
      | cons y r ih =>
        simp only [removeNode] at ih
        simp only [removeNode, List.map_cons, List.filter_cons, isNode, data_rearrange]
        by_cases hyi : y.data.id = d.id
        · simp only [hyi, beq_self_eq_true, Bool.not_true, Bool.false_eq_true, if_false, ne_eq, not_true_eq_false, decide_false]
          exact ih
        · have : (y.data.id == d.id) = false := by simpa using hyi
          simp only [this, Bool.not_false, if_true, List.map_cons, data_rearrange, ne_eq, hyi, not_false_eq_true, decide_true]
          congr 1
    rw [children_rearrange, e1, h2]

/-- C126 (part). Without containers in containers, the display can be applied if and only if the exported names are different and none is
`Splashes`. Missing: containers in containers, see `C126_nested_witness`. -/
theorem C126_names_partial (used : List String) (root : Tree) (next : Nat) (e : Editor) (hr : Reachable used root next e) (hf : Flat root) :
    e.canApply = true ↔ (exports e.root).Nodup ∧ "Splashes" ∉ exports e.root := by
  have hi := reach_inv hr
  have hf := flat_reachable hr hf
  rw [canApply_flat hf, exports, ← nodup_exports _ hi.proper.distinct]
  simp only [hasErrors, Bool.or_eq_false_iff, List.any_eq_false]
  constructor
  · intro h
    refine ⟨?_, ?_⟩
    · intro d hd o ho h1 h2 h3
      exact (h d hd).2 o ho (by simp [h1, h2, h3])
    · intro hm
      obtain ⟨d, hd, e'⟩ := List.mem_map.1 (List.mem_filter.1 hm).1
      have := (h d hd).1
      rw [e'] at this
      revert this; decide
  · rintro ⟨h1, h2⟩ d hd
    refine ⟨?_, ?_⟩
    · rw [beq_eq_false_iff_ne]
      intro e'
      exact h2 (List.mem_filter.2 ⟨List.mem_map.2 ⟨d, hd, e'⟩, by decide⟩)
    · intro o ho hx
      simp only [Bool.and_eq_true, bne_iff_ne, ne_eq, beq_iff_eq] at hx
      exact h1 d hd o ho hx.1.1 hx.1.2 hx.2

/-- C126. Closing the dialog without applying asks if and only if the elements are different from those which are in the configuration. -/
theorem C126_dirty (saved : Tree) (e : Editor) : e.isDirty saved = false ↔ anonymous saved = anonymous e.root := by
  simp only [Editor.isDirty, bne_eq_false_iff_eq]
  constructor
  · intro h
    exact (json_inj saved e.root [] [] (by simpa using h)).1
  · intro h
    rw [json_anonymous saved, json_anonymous e.root, h]

/-- C126 (part). The name of an element no action uses is changed to what is typed if this consists of letters, digits and underscores, and does
not begin with an underscore. Any other text is changed to such a name. Missing: names which begin with a digit are not valid in Python, see
`C126_digit_witness`. -/
theorem C126_rename_partial (used : List String) (root : Tree) (next : Nat) (e : Editor) (hr : Reachable used root next e) (d : Data)
    (hd : d ∈ e.root.flatten) (hs : e.selected = some d.id) (hu : d.assign = "" ∨ d.assign ∉ used) (text : String) :
    ∃ name, { d with assign := name } ∈ (e.step used (.rename text)).root.flatten ∧ (∀ c ∈ name.toList, c.isAlphanum = true ∨ c = '_') ∧
      name.toList.head? ≠ some '_' ∧
      ((∀ c ∈ text.toList, c.isAlphanum = true ∨ c = '_') → text.toList.head? ≠ some '_' → name = text) := by
  have hnr : d.id ∉ e.referenced := by
    intro h
    have := reach_refs hr d.id h d hd rfl
    rcases hu with hu | hu
    · exact this.1 hu
    · exact hu this.2
  refine ⟨cleanName text, ?_, cleanName_allowed text, cleanName_head text, cleanName_self text⟩
  simp only [Editor.step, hs, if_neg hnr]
  rw [change_flatten e _ _ hs, List.mem_map]
  exact ⟨d, hd, by rw [if_pos rfl]⟩

/-- C126 (part). In the generated file, the layout of each label is the one which is shown in the editor. Missing: the link which shows the version,
see `C126_version_witness`. -/
theorem C126_layouts_partial (used : List String) (root : Tree) (callback : String) (next : Nat) (hsh : Shared root)
    (events : List Event) (hv : Event.version ∉ events) (d : Data)
    (hd : d ∈ ((init used root callback next).run used events).root.flatten) (l : Layout) (hl : d.layout = some l) :
    generatedLayout ((init used root callback next).run used events).root l = l.args := by
  refine shared_generated ?_ d hd l hl
  have h0 : Shared (init used root callback next).root := by
    refine shared_of hsh (layouts_modify _ _ ?_)
    intro d l hl
    rw [(setupType_same d).2.2.2.2.1] at hl
    exact .inr hl
  clear hd hl
  generalize init used root callback next = e0 at h0
  induction events generalizing e0 with
  | nil => exact h0
  | cons ev r ih =>
    exact ih (fun h => hv (by simp [h])) _ (shared_step h0 ev fun h => hv (by simp [h]))

namespace C126

/-- A display with two labels, a tuner and a state dot; the labels share their layout. -/
def display : Tree :=
  .node ⟨0, "DisplayElement", "", some ⟨0, 0, 240, 240⟩, none, [], true⟩
    [.node ⟨1, "DisplayLabel", "DISPLAY_HEADER_1", some ⟨0, 0, 120, 40⟩, some ⟨"LAYOUT", [("font", "\"/fonts/H20.pcf\"")]⟩, [], false⟩ [],
     .node ⟨2, "DisplayLabel", "DISPLAY_HEADER_2", some ⟨120, 0, 120, 40⟩, some ⟨"LAYOUT", [("font", "\"/fonts/H20.pcf\"")]⟩, [], false⟩ [],
     .node ⟨3, "TunerDisplay", "", some ⟨0, 40, 240, 160⟩, none, [], false⟩ [],
     .node ⟨4, "BidirectionalProtocolState", "", some ⟨230, 0, 20, 20⟩, none, [], false⟩ []]

theorem display_proper : Proper display 5 := by
  refine ⟨by decide, by decide, ?_, by decide⟩
  intro t ht hc
  simp only [display, subtrees, subtreesAll, List.mem_cons, List.append_nil, List.nil_append, List.cons_append, List.not_mem_nil, or_false] at ht
  rcases ht with rfl | rfl | rfl | rfl | rfl
  · cases hc
  all_goals rfl

theorem display_shared : Shared display := by
  intro d hd d' hd' l l' h h' _ _
  simp only [display, Tree.flatten, flattenAll, List.mem_cons, List.append_nil, List.nil_append, List.cons_append, List.not_mem_nil, or_false] at hd hd'
  rcases hd with rfl | rfl | rfl | rfl | rfl <;> cases h <;> rcases hd' with rfl | rfl | rfl | rfl | rfl <;> cases h' <;> rfl

theorem display_flat : Flat display := by
  intro t ht
  simp only [display, Tree.children, List.mem_cons, List.not_mem_nil, or_false] at ht
  rcases ht with rfl | rfl | rfl | rfl <;> rfl

/-- Some history in which the first label is used by an action. -/
def history : List Event :=
  [.select 1, .toFront, .place (7 / 2) (-1), .size (1 / 3) 33, .rename "Other", .remove, .create, .rename "My Label", .select 2, .layout "stroke" (some "2"),
   .down, .remove]

def edited : Editor := (init ["DISPLAY_HEADER_1"] display "callback" 5).run ["DISPLAY_HEADER_1"] history

end C126

/-- The element which is used is there at the end, at its new place; the other label is gone, a new one has been added, and the state dot is of the
right size. -/
example : edited.root.flatten.map (·.id) = [0, 3, 4, 1, 5] ∧
    edited.root.flatten.map (·.assign) = ["", "", "", "DISPLAY_HEADER_1", "My_Label"] ∧
    edited.root.flatten.map (·.bounds) = [some ⟨0, 0, 240, 240⟩, some ⟨0, 40, 240, 160⟩, some ⟨242, 0, 8, 8⟩, some ⟨4, -1, 1, 33⟩, some ⟨0, 0, 100, 30⟩] := by
  decide +kernel

/-- The hypotheses of the theorems are met. -/
example : Reachable ["DISPLAY_HEADER_1"] display 5 edited := ⟨display_proper, "callback", history, rfl⟩

/-- All events which change something do so. -/
example : edited.canApply = true ∧ edited.isDirty display = true ∧ (exports edited.root) = ["DISPLAY_HEADER_1", "My_Label"] ∧
    (edited.step ["DISPLAY_HEADER_1"] (.select 5)).selected = some 5 := by decide +kernel

/-- With the first label selected, the buttons change the order. -/
example : let e := edited.step ["DISPLAY_HEADER_1"] (.select 1)
    (e.step ["DISPLAY_HEADER_1"] .up).root.children.map (·.data.id) = [3, 4, 5, 1] ∧ raise 1 [3, 4, 1, 5] = [3, 4, 5, 1] ∧
    (e.step ["DISPLAY_HEADER_1"] .down).root.children.map (·.data.id) = [3, 1, 4, 5] ∧
    (e.step ["DISPLAY_HEADER_1"] .remove).root.children.map (·.data.id) = [3, 4, 1, 5] ∧
    ((e.step ["DISPLAY_HEADER_1"] (.select 3)).step ["DISPLAY_HEADER_1"] .remove).root.children.map (·.data.id) = [4, 1, 5] := by decide +kernel

/-- C126, disagreement. Two labels in a nested container with the same name are not noticed, as only the direct children of the display are checked
(`DisplayNode.js:431-440`): the display can be applied although one of them replaces the other in the generated file. -/
theorem C126_nested_witness :
    let leaf := fun i => Tree.node ⟨i, "DisplayLabel", "LABEL", some ⟨0, 0, 10, 10⟩, some defaultLayout, [], false⟩ []
    let root := Tree.node ⟨0, "DisplayElement", "", some ⟨0, 0, 240, 240⟩, none, [], true⟩
      [.node ⟨1, "DisplaySplitContainer", "", some ⟨0, 0, 240, 40⟩, none, [], true⟩ [leaf 2, leaf 3]]
    (init [] root "callback" 4).canApply = true ∧ exports (init [] root "callback" 4).root = ["LABEL", "LABEL"] := by
  decide +kernel

/-- C126, disagreement. A name which begins with a digit is accepted and can be applied, but is no name in Python. -/
theorem C126_digit_witness :
    let e := (init [] display "callback" 5).run [] [.select 2, .rename "1A"]
    e.canApply = true ∧ "1A" ∈ exports e.root ∧ isIdentifier "1A" = false := by
  decide +kernel

/-- C126, disagreement. When only the callback has been changed, the dialog is closed without asking: the change is lost. -/
theorem C126_callback_witness :
    let e := init [] C126.display "callback" 5
    let e' := e.step [] (.callback "other")
    e'.callback = "other" ∧ e.callback = "callback" ∧ e'.isDirty e.root = false := by
  decide +kernel

/-- C126, disagreement. The link which shows the version changes the layout but keeps its name. In the generated file, this name has the value of
the last label which uses it: here, the change is lost for the first label; for the second, both labels are changed. -/
theorem C126_version_witness :
    let e1 := (init [] C126.display "callback" 5).run [] [.select 1, .version]
    let e2 := (init [] C126.display "callback" 5).run [] [.select 2, .version]
    let layouts := fun e : Editor => (e.root.flatten.filterMap (·.layout)).map (·.args.length)
    let generated := fun e : Editor => (e.root.flatten.filterMap (·.layout)).map (fun l => (generatedLayout e.root l).length)
    layouts e1 = [2, 1] ∧ generated e1 = [1, 1] ∧ layouts e2 = [1, 2] ∧ generated e2 = [2, 2] := by
  decide +kernel

end PySwitch.Props
