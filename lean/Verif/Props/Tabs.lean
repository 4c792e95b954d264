import Verif.Spec.Tabs
/-!
C156: Just the active tab is displayed, and it is remembered.
C157: There is always an active tab.
-/
namespace PySwitch.Props
open PySwitch.Tabs PySwitch.Tabs.Spec

/-- The tabs are consistent, apart from what is displayed. -/
def c156_base (s : State) : Prop :=
  (s.tabs.map Tab.key).Nodup ∧ (∀ t ∈ s.tabs, t.key < s.next) ∧
    (∀ k, s.active = some k → ∃ t ∈ s.tabs, t.key = k ∧ s.mem.current = some t.name) ∧ s.mem.isOpen = s.isOpen

def c156_inv (s : State) : Prop :=
  c156_base s ∧ (∀ t ∈ s.tabs, t.shown = decide (s.active = some t.key) ∧ t.marked = decide (s.active = some t.key)) ∧
    (s.active = none → (s.mem.current = none → s.tabs = []) ∧ ∀ c, s.mem.current = some c → ∀ t ∈ s.tabs, t.name ≠ c)

theorem c156_updateActive_tabs (s : State) (t : Tab) :
    t ∈ s.updateActive.tabs ↔ ∃ u ∈ s.tabs, t = ⟨u.key, u.name, decide (s.active = some u.key), decide (s.active = some u.key)⟩ := by
  simp only [State.updateActive, List.mem_map]
  constructor
  · rintro ⟨u, hu, rfl⟩; exact ⟨u, hu, rfl⟩
  · rintro ⟨u, hu, rfl⟩; exact ⟨u, hu, rfl⟩

theorem c156_updateActive (s : State) (h : c156_base s)
    (hn : s.active = none → (s.mem.current = none → s.tabs = []) ∧ ∀ c, s.mem.current = some c → ∀ t ∈ s.tabs, t.name ≠ c) :
    c156_inv s.updateActive := by
  obtain ⟨h1, h2, h3, h4⟩ := h
  have hk : s.updateActive.tabs.map Tab.key = s.tabs.map Tab.key := by simp [State.updateActive]
  refine ⟨⟨by rw [hk]; exact h1, fun t ht => ?_, fun k hk => ?_, h4⟩, fun t ht => ?_, fun ha => ⟨fun hm => ?_, fun c hc t ht => ?_⟩⟩
  · obtain ⟨u, hu, rfl⟩ := (c156_updateActive_tabs s t).1 ht
    exact h2 u hu
  · obtain ⟨u, hu, e1, e2⟩ := h3 k hk
    exact ⟨_, (c156_updateActive_tabs s _).2 ⟨u, hu, rfl⟩, e1, e2⟩
  · obtain ⟨u, hu, rfl⟩ := (c156_updateActive_tabs s t).1 ht
    exact ⟨rfl, rfl⟩
  · have := (hn ha).1 hm
    simp [State.updateActive, this]
  · obtain ⟨u, hu, rfl⟩ := (c156_updateActive_tabs s t).1 ht
    exact (hn ha).2 c hc u hu

theorem c156_setActive (s : State) (t : Tab) (ht : t ∈ s.tabs) (h : c156_base s) : c156_inv (s.setActive t) := by
  obtain ⟨h1, h2, h3, h4⟩ := h
  have e : s.setActive t = State.updateActive ⟨s.tabs, some t.key, ⟨some t.name, s.mem.isOpen⟩, s.isOpen, s.next⟩ := rfl
  rw [e]
  refine c156_updateActive _ ⟨h1, h2, fun k hk => ?_, h4⟩ fun hn => ?_
  · exact ⟨t, ht, Option.some.inj hk, rfl⟩
  · cases hn

theorem c156_update (s : State) (h : c156_base s) : c156_inv s.update := by
  unfold State.update
  by_cases hc : s.tabs ≠ [] ∧ s.active = none
  · rw [if_pos hc]
    cases hm : s.mem.current with
    | some c =>
      dsimp only
      cases hb : s.byName c with
      | some t => exact c156_setActive s t (List.mem_of_find?_eq_some hb) h
      | none =>
        refine c156_updateActive s h fun _ => ⟨fun he => ?_, fun d hd t ht => ?_⟩
        · rw [hm] at he; cases he
        · rw [hm] at hd; cases hd
          have := List.find?_eq_none.1 hb t ht
          simpa using this
    | none =>
      dsimp only
      cases ht : s.tabs with
      | nil => exact absurd ht hc.1
      | cons t r => exact c156_setActive s t (by rw [ht]; exact List.mem_cons_self) h
  · rw [if_neg hc]
    refine c156_updateActive s h fun ha => ?_
    have : s.tabs = [] := Classical.byContradiction fun hne => hc ⟨hne, ha⟩
    exact ⟨fun _ => this, fun c _ t ht => by rw [this] at ht; simp at ht⟩

theorem c156_step (s : State) (e : Ev) (h : c156_inv s) : c156_inv (s.step e) := by
  obtain ⟨hb, hs, hn⟩ := h
  have hb' := hb
  obtain ⟨h1, h2, h3, h4⟩ := hb
  cases e with
  | add name =>
    refine c156_update _ ⟨?_, fun t ht => ?_, fun k hk => ?_, h4⟩
    · simp only [List.map_append, List.map_cons, List.map_nil, List.nodup_append]
      refine ⟨h1, by simp, fun a ha b hb => ?_⟩
      obtain ⟨t, ht, rfl⟩ := List.mem_map.1 ha
      rw [List.mem_singleton.1 hb]
      exact Nat.ne_of_lt (h2 t ht)
    · rcases List.mem_append.1 ht with ht | ht
      · exact Nat.lt_succ_of_lt (h2 t ht)
      · rw [List.mem_singleton.1 ht]; exact Nat.lt_succ_self _
    · obtain ⟨t, ht, e1, e2⟩ := h3 k hk
      exact ⟨t, List.mem_append_left _ ht, e1, e2⟩
  | remove key confirmed =>
    simp only [State.step]
    by_cases hc : confirmed = true
    · rw [if_pos hc]
      refine c156_update _ ⟨h1.sublist ((List.filter_sublist).map _), fun t ht => h2 t (List.mem_filter.1 ht).1, fun k hk => ?_, h4⟩
      by_cases ha : s.active = some key
      · simp only [if_pos ha] at hk; cases hk
      · simp only [if_neg ha] at hk
        obtain ⟨t, ht, e1, e2⟩ := h3 k hk
        refine ⟨t, List.mem_filter.2 ⟨ht, ?_⟩, e1, e2⟩
        simp only [bne_iff_ne, ne_eq]
        intro he
        exact ha (by rw [hk, ← e1, he])
    · rw [if_neg hc]; exact ⟨hb', hs, hn⟩
  | select key =>
    simp only [State.step]
    cases hf : s.tabs.find? fun t => t.key == key with
    | some t => exact c156_setActive s t (List.mem_of_find?_eq_some hf) hb'
    | none => exact ⟨hb', hs, hn⟩
  | selectName name =>
    simp only [State.step]
    cases hf : s.byName name with
    | some t => exact c156_setActive s t (List.mem_of_find?_eq_some hf) hb'
    | none => exact ⟨hb', hs, hn⟩
  | «show» => exact ⟨⟨h1, h2, h3, rfl⟩, hs, hn⟩
  | hide => exact ⟨⟨h1, h2, h3, rfl⟩, hs, hn⟩
  | toggle => exact ⟨⟨h1, h2, h3, rfl⟩, hs, hn⟩

theorem c156_reach (m : Memory) (es : List Ev) : c156_inv (run m es) := by
  suffices H : ∀ (es : List Ev) (s : State), c156_inv s → c156_inv (es.foldl State.step s) by
    refine H es _ ⟨⟨by simp [start], by simp [start], by simp [start], rfl⟩, by simp [start], fun _ => ⟨fun _ => rfl, by simp [start]⟩⟩
  intro es
  induction es with
  | nil => intro s h; exact h
  | cons e es ih => intro s h; exact ih _ (c156_step s e h)

theorem c156_only (l : List Tab) (k : Nat) (hn : (l.map Tab.key).Nodup) (hk : ∃ t ∈ l, t.key = k) :
    (l.filter fun t => decide (some k = some t.key)).map Tab.key = [k] := by
  induction l with
  | nil => simp at hk
  | cons x l ih =>
    simp only [List.map_cons, List.nodup_cons] at hn
    by_cases hx : x.key = k
    · have hr : l.filter (fun t => decide (some k = some t.key)) = [] := by
        rw [List.filter_eq_nil_iff]
        intro t ht
        simp only [Option.some.injEq, decide_eq_true_eq]
        intro he
        exact hn.1 (List.mem_map.2 ⟨t, ht, by rw [← he, hx]⟩)
      rw [List.filter_cons, if_pos (by simp [hx]), hr]
      simp [hx]
    · rw [List.filter_cons, if_neg (by simpa using fun he => hx (Eq.symm he))]
      refine ih hn.2 ?_
      obtain ⟨t, ht, e⟩ := hk
      rcases List.mem_cons.1 ht with rfl | ht
      · exact absurd e hx
      · exact ⟨t, ht, e⟩

theorem c156_filter (s : State) (h : c156_inv s) (f : Tab → Bool) (hf : ∀ t ∈ s.tabs, f t = decide (s.active = some t.key)) :
    (s.tabs.filter f).map Tab.key = s.active.toList := by
  rw [List.filter_congr hf]
  cases ha : s.active with
  | none => simp
  | some k =>
    obtain ⟨t, ht, e, -⟩ := h.1.2.2.1 k ha
    exact c156_only s.tabs k h.1.1 ⟨t, ht, e⟩

/-- At each time, just the active tab is displayed and highlighted (none, if there is no active tab). -/
theorem C156_displayed (m : Memory) (es : List Ev) :
    displayed (run m es) = (run m es).active.toList ∧ highlighted (run m es) = (run m es).active.toList :=
  have h := c156_reach m es
  ⟨c156_filter _ h _ fun t ht => (h.2.1 t ht).1, c156_filter _ h _ fun t ht => (h.2.1 t ht).2⟩

theorem c156_find (l : List Tab) (hn : (l.map Tab.key).Nodup) (t : Tab) (ht : t ∈ l) : l.find? (fun u => u.key == t.key) = some t := by
  induction l with
  | nil => simp at ht
  | cons x l ih =>
    simp only [List.map_cons, List.nodup_cons] at hn
    rcases List.mem_cons.1 ht with rfl | ht
    · simp [List.find?]
    · have : x.key ≠ t.key := fun he => hn.1 (he ▸ List.mem_map.2 ⟨t, ht, rfl⟩)
      rw [List.find?_cons_of_neg (by simpa using this)]
      exact ih hn.2 ht

/-- A tab which is selected becomes the active one; all tabs stay. -/
theorem C156_select (m : Memory) (es : List Ev) (t : Tab) (ht : t ∈ (run m es).tabs) :
    (run m (es ++ [.select t.key])).active = some t.key ∧
      (run m (es ++ [.select t.key])).tabs.map Tab.key = (run m es).tabs.map Tab.key := by
  have e : run m (es ++ [.select t.key]) = (run m es).setActive t := by
    have e0 : run m (es ++ [.select t.key]) = (run m es).step (.select t.key) := by simp [run]
    rw [e0]
    simp only [State.step, c156_find _ (c156_reach m es).1.1 t ht]
  rw [e]
  exact ⟨rfl, by simp [State.setActive, State.updateActive]⟩

/-- A tab which is selected by its name becomes the active one; if there are several of this name, the first one. Other names change nothing. -/
theorem C156_selectName (m : Memory) (es : List Ev) (name : String) :
    (∀ before t after, (run m es).tabs = before ++ t :: after → t.name = name → (∀ u ∈ before, u.name ≠ name) →
      (run m (es ++ [.selectName name])).active = some t.key) ∧
      ((∀ t ∈ (run m es).tabs, t.name ≠ name) → run m (es ++ [.selectName name]) = run m es) := by
  have e0 : run m (es ++ [.selectName name]) = (run m es).step (.selectName name) := by simp [run]
  rw [e0]
  constructor
  · intro before t after h1 h2 h3
    have : (run m es).byName name = some t := by
      unfold State.byName
      rw [h1, List.find?_append, List.find?_eq_none.2 (by intro u hu; simpa using h3 u hu)]
      simp [h2]
    simp only [State.step, this]
    rfl
  · intro h
    have : (run m es).byName name = none := List.find?_eq_none.2 (by intro u hu; simpa using h u hu)
    simp only [State.step, this]

/-- Opening, closing and toggling the panel; nothing else changes it. -/
theorem C156_panel (m : Memory) (es : List Ev) (e : Ev) :
    (run m (es ++ [e])).isOpen =
      match e with
      | .show => true
      | .hide => false
      | .toggle => !(run m es).isOpen
      | _ => (run m es).isOpen := by
  have e0 : run m (es ++ [e]) = (run m es).step e := by simp [run]
  have hu : ∀ s : State, s.update.isOpen = s.isOpen := by
    intro s
    unfold State.update
    split
    · split
      · split <;> rfl
      · split <;> rfl
    · rfl
  rw [e0]
  cases e with
  | add name => exact hu _
  | remove key confirmed =>
    simp only [State.step]
    split
    · exact hu _
    · rfl
  | select key =>
    simp only [State.step]
    split <;> rfl
  | selectName name =>
    simp only [State.step]
    split <;> rfl
  | «show» => rfl
  | hide => rfl
  | toggle => rfl

/-- The tabs which are there, in order: those which have been added, without those which have been removed. -/
theorem C156_tabs (m : Memory) (es : List Ev) (e : Ev) :
    (run m (es ++ [e])).tabs.map Tab.name =
      match e with
      | .add name => (run m es).tabs.map Tab.name ++ [name]
      | .remove key true => ((run m es).tabs.filter fun t => t.key ≠ key).map Tab.name
      | _ => (run m es).tabs.map Tab.name := by
  have e0 : run m (es ++ [e]) = (run m es).step e := by simp [run]
  have ha : ∀ s : State, s.updateActive.tabs.map Tab.name = s.tabs.map Tab.name := by intro s; simp [State.updateActive]
  have hs : ∀ (s : State) (t : Tab), (s.setActive t).tabs.map Tab.name = s.tabs.map Tab.name := by
    intro s t; simp [State.setActive, State.updateActive]
  have hu : ∀ s : State, s.update.tabs.map Tab.name = s.tabs.map Tab.name := by
    intro s
    unfold State.update
    split
    · split
      · split
        · exact hs _ _
        · exact ha _
      · split
        · exact hs _ _
        · rfl
    · exact ha _
  rw [e0]
  cases e with
  | add name => simp only [State.step]; rw [hu]; simp
  | remove key confirmed =>
    cases confirmed with
    | false => rfl
    | true =>
      show (State.update _).tabs.map Tab.name = _
      rw [hu]
      refine congrArg (List.map Tab.name) (List.filter_congr fun t _ => ?_)
      by_cases h : t.key = key <;> simp [h]
  | select key =>
    simp only [State.step]
    split
    · exact hs _ _
    · rfl
  | selectName name =>
    simp only [State.step]
    split
    · exact hs _ _
    · rfl
  | «show» => rfl
  | hide => rfl
  | toggle => rfl

theorem c156_update_active (s : State) (k : Nat) (h : s.active = some k) : s.update.active = some k := by
  unfold State.update
  rw [if_neg (by rw [h]; simp)]
  exact h

/-- The active tab stays, whatever is added or removed, or done with the panel, until it is removed itself or another one is selected. -/
theorem C156_keeps (m : Memory) (es : List Ev) (e : Ev) (k : Nat) (h : (run m es).active = some k) (h1 : e ≠ .remove k true)
    (h2 : ∀ j, e ≠ .select j) (h3 : ∀ n, e ≠ .selectName n) : (run m (es ++ [e])).active = some k := by
  have e0 : run m (es ++ [e]) = (run m es).step e := by simp [run]
  rw [e0]
  cases e with
  | add name => exact c156_update_active _ k h
  | remove key confirmed =>
    simp only [State.step]
    by_cases hc : confirmed = true
    · rw [if_pos hc]
      refine c156_update_active _ k ?_
      have : k ≠ key := fun he => h1 (by rw [he, hc])
      show (if (run m es).active = some key then none else (run m es).active) = _
      rw [h, if_neg (by simpa using this)]
    · rw [if_neg hc]; exact h
  | select j => exact absurd rfl (h2 j)
  | selectName n => exact absurd rfl (h3 n)
  | «show» => exact h
  | hide => exact h
  | toggle => exact h

/-- The name of the active tab is remembered, and if the panel is open. -/
theorem C156_remembered (m : Memory) (es : List Ev) :
    (run m es).mem.isOpen = (run m es).isOpen ∧
      ∀ k, (run m es).active = some k → ∃ t ∈ (run m es).tabs, t.key = k ∧ (run m es).mem.current = some t.name :=
  ⟨(c156_reach m es).1.2.2.2, (c156_reach m es).1.2.2.1⟩

/-- There is no active tab only if none has the remembered name; or, if no name is remembered, if there are no tabs. -/
theorem C156_none (m : Memory) (es : List Ev) (h : (run m es).active = none) :
    ((run m es).mem.current = none → (run m es).tabs = []) ∧ ∀ c, (run m es).mem.current = some c → ∀ t ∈ (run m es).tabs, t.name ≠ c :=
  (c156_reach m es).2.2 h

/-! ### Starting again -/

/-- The tabs of a start: names and keys in order; the memory is as before as long as the remembered tab is missing. -/
theorem c156_start (m : Memory) (c : String) (hm : m.current = some c) : ∀ names : List String,
    (run m (adds names)).tabs.map (fun t => (t.key, t.name)) = (List.range names.length).zip names ∧ (run m (adds names)).next = names.length ∧
      (run m (adds names)).mem = m ∧ (run m (adds names)).isOpen = m.isOpen ∧
      (run m (adds names)).active = if c ∈ names then some (names.idxOf c) else none := by
  intro names
  rw [← List.reverse_reverse names]
  generalize names.reverse = l
  induction l with
  | nil => exact ⟨rfl, rfl, rfl, rfl, rfl⟩
  | cons n l ih =>
    rw [List.reverse_cons]
    generalize hL : l.reverse = names at ih
    obtain ⟨i1, i2, i3, i4, i5⟩ := ih
    have hr : run m (adds (names ++ [n])) = (run m (adds names)).step (.add n) := by simp [run, adds]
    have hinv := c156_reach m (adds names)
    rw [hr]
    generalize hs : run m (adds names) = s at i1 i2 i3 i4 i5 hinv
    have hz : (List.range (names ++ [n]).length).zip (names ++ [n]) = (List.range names.length).zip names ++ [(names.length, n)] := by
      rw [List.length_append, List.length_singleton, List.range_succ, List.zip_append (by simp)]; rfl
    have htabs : ∀ (a : Option Nat), (State.updateActive ⟨s.tabs ++ [⟨s.next, n, true, false⟩], a, s.mem, s.isOpen, s.next + 1⟩).tabs.map
        (fun t => (t.key, t.name)) = (List.range (names ++ [n]).length).zip (names ++ [n]) := by
      intro a
      rw [hz, ← i1, ← i2]
      simp [State.updateActive]
    have hnx : s.next + 1 = (names ++ [n]).length := by simp [i2]
    by_cases hc : c ∈ names
    · rw [if_pos hc] at i5
      have hu : s.step (.add n) = State.updateActive ⟨s.tabs ++ [⟨s.next, n, true, false⟩], s.active, s.mem, s.isOpen, s.next + 1⟩ := by
        simp only [State.step, State.update]
        rw [if_neg (by rw [i5]; simp)]
      rw [hu, if_pos (List.mem_append_left _ hc)]
      refine ⟨htabs _, hnx, i3, i4, ?_⟩
      show s.active = _
      rw [i5, List.idxOf_append, if_pos hc]
    · rw [if_neg hc] at i5
      have hname : ∀ t ∈ s.tabs, t.name ≠ c := (hinv.2.2 i5).2 c (by rw [i3]; exact hm)
      by_cases hcn : n = c
      · have hb : (State.byName ⟨s.tabs ++ [⟨s.next, n, true, false⟩], s.active, s.mem, s.isOpen, s.next + 1⟩ c) = some ⟨s.next, n, true, false⟩ := by
          unfold State.byName
          rw [List.find?_append, List.find?_eq_none.2 (by intro t ht; simpa using hname t ht)]
          simp [List.find?, hcn]
        have hu : s.step (.add n) = State.updateActive ⟨s.tabs ++ [⟨s.next, n, true, false⟩], some s.next, ⟨some n, s.mem.isOpen⟩, s.isOpen, s.next + 1⟩ := by
          simp only [State.step, State.update]
          rw [if_pos ⟨by simp, i5⟩]
          simp only [i3, hm]
          rw [← i3, hb]
          rfl
        rw [hu, if_pos (by simp [hcn])]
        refine ⟨htabs _, hnx, ?_, i4, ?_⟩
        · show (⟨some n, s.mem.isOpen⟩ : Memory) = m
          rw [i3, hcn, ← hm]
        · show some s.next = _
          rw [i2, List.idxOf_append, if_neg hc]
          simp [hcn]
      · have hb : (State.byName ⟨s.tabs ++ [⟨s.next, n, true, false⟩], s.active, s.mem, s.isOpen, s.next + 1⟩ c) = none := by
          unfold State.byName
          rw [List.find?_append, List.find?_eq_none.2 (by intro t ht; simpa using hname t ht)]
          simp [hcn]
        have hu : s.step (.add n) = State.updateActive ⟨s.tabs ++ [⟨s.next, n, true, false⟩], s.active, s.mem, s.isOpen, s.next + 1⟩ := by
          simp only [State.step, State.update]
          rw [if_pos ⟨by simp, i5⟩]
          simp only [i3, hm]
          rw [← i3, hb]
        rw [hu, if_neg (by simp [hc, Ne.symm hcn])]
        exact ⟨htabs _, hnx, i3, i4, i5⟩

/-- When the application is started again, the first tab with the name of the last active one becomes active, in whatever order tabs are added, and
the panel is open or not as before. -/
theorem C156_restart (m : Memory) (es : List Ev) (k : Nat) (t : Tab) (hk : (run m es).active = some k) (ht : t ∈ (run m es).tabs) (htk : t.key = k)
    (names : List String) (hn : t.name ∈ names) :
    (run (run m es).mem (adds names)).active = some (names.idxOf t.name) ∧ (run (run m es).mem (adds names)).isOpen = (run m es).isOpen ∧
      (run (run m es).mem (adds names)).tabs.map Tab.name = names := by
  obtain ⟨u, hu, e1, e2⟩ := (c156_reach m es).1.2.2.1 k hk
  have hut : u = t := by
    have a := c156_find _ (c156_reach m es).1.1 u hu
    have b := c156_find _ (c156_reach m es).1.1 t ht
    rw [e1] at a
    rw [htk] at b
    rw [a] at b
    exact Option.some.inj b
  rw [hut] at e2
  obtain ⟨a, -, -, b, c⟩ := c156_start (run m es).mem t.name e2 names
  refine ⟨by rw [c, if_pos hn], by rw [b]; exact (c156_reach m es).1.2.2.2, ?_⟩
  have : (run (run m es).mem (adds names)).tabs.map Tab.name = ((run (run m es).mem (adds names)).tabs.map (fun t => (t.key, t.name))).map Prod.snd := by
    simp
  rw [this, a, List.map_snd_zip (by simp)]

/-- At the very first start, the first tab is the active one. -/
theorem C156_first (m : Memory) (hm : m.current = none) (n : String) (names : List String) : (run m (adds (n :: names))).active = some 0 := by
  suffices H : ∀ (l : List String) (s : State), s.active = some 0 → ((adds l).foldl State.step s).active = some 0 by
    show ((adds names).foldl State.step ((start m).step (.add n))).active = some 0
    refine H names _ ?_
    simp only [State.step, State.update]
    rw [if_pos ⟨by simp, rfl⟩]
    simp only [start, hm]
    rfl
  intro l
  induction l with
  | nil => intro s h; exact h
  | cons x l ih => intro s h; exact ih _ (c156_update_active _ 0 h)

/-! ### An active tab -/

theorem c157_update (s : State) (h : s.active ≠ none ∨ s.mem.current = none) :
    (s.update.active ≠ none ∨ s.update.mem.current = none) := by
  unfold State.update
  by_cases hc : s.tabs ≠ [] ∧ s.active = none
  · rw [if_pos hc]
    have hm : s.mem.current = none := h.resolve_left fun hne => hne hc.2
    rw [hm]
    dsimp only
    cases ht : s.tabs with
    | nil => exact Or.inr hm
    | cons t r => exact Or.inl (by simp [State.setActive, State.updateActive])
  · rw [if_neg hc]; exact h

/-- If nothing was remembered at the beginning, and the active tab is never removed: there is an active tab as soon as there is a tab. (Partial: see
the witnesses.) -/
theorem C157_active_partial (m : Memory) (hm : m.current = none) (es : List Ev)
    (hr : ∀ before k after, es = before ++ .remove k true :: after → (run m before).active ≠ some k) (ht : (run m es).tabs ≠ []) :
    (run m es).active ≠ none := by
  suffices H : ∀ l : List Ev, (∀ before k after, l.reverse = before ++ .remove k true :: after → (run m before).active ≠ some k) →
      ((run m l.reverse).active ≠ none ∨ (run m l.reverse).mem.current = none) by
    have h := H es.reverse (by simpa using hr)
    rw [List.reverse_reverse] at h
    rcases h with h | h
    · exact h
    · intro hn
      exact ht ((C156_none m es hn).1 h)
  intro l
  induction l with
  | nil => intro _; exact Or.inr hm
  | cons e l ih =>
    intro hp
    rw [List.reverse_cons] at hp ⊢
    have ih := ih fun before k after hx => hp before k (after ++ [e]) (by rw [hx]; simp)
    have hlast := fun k (he : e = .remove k true) => hp l.reverse k [] (by rw [he])
    have hr : run m (l.reverse ++ [e]) = (run m l.reverse).step e := by simp [run]
    rw [hr]
    generalize run m l.reverse = s at ih hlast
    cases e with
    | add name => exact c157_update _ ih
    | remove key confirmed =>
      simp only [State.step]
      by_cases hc : confirmed = true
      · rw [if_pos hc]
        refine c157_update _ ?_
        show (if s.active = some key then none else s.active) ≠ none ∨ _
        rw [if_neg (hlast key (by rw [hc]))]
        exact ih
      · rw [if_neg hc]; exact ih
    | select key =>
      simp only [State.step]
      split
      · exact Or.inl (by simp [State.setActive, State.updateActive])
      · exact ih
    | selectName name =>
      simp only [State.step]
      split
      · exact Or.inl (by simp [State.setActive, State.updateActive])
      · exact ih
    | «show» => exact ih
    | hide => exact ih
    | toggle => exact ih

/-! ### Examples -/

/-- Three tabs, the second is selected; after starting again with another order it is active again. -/
example :
    let s := run {} [.add "inputs.py", .add "display.py", .add "MIDI Monitor", .show, .select 1]
    s.active = some 1 ∧ displayed s = [1] ∧ highlighted s = [1] ∧ s.mem = ⟨some "display.py", true⟩ ∧
      (run s.mem (adds ["MIDI Monitor", "Settings", "display.py"])).active = some 2 := by decide

/-- Removing a tab which is not active. -/
example :
    let es : List Ev := [.add "inputs.py", .add "Virtual Kemper", .select 0, .remove 1 true, .add "Virtual Kemper"]
    (run {} es).active = some 0 ∧ (run {} es).tabs.map Tab.key = [0, 2] := by decide

/-! ### Disagreements -/

/-- The active tab is removed (as when another client is chosen while the tab of the virtual client is active): no tab is displayed, although there
are others, because the name of the removed tab is still remembered. -/
theorem C157_removed_witness :
    let s := run {} [.add "inputs.py", .add "display.py", .add "Virtual Kemper", .select 2, .remove 2 true]
    s.tabs.map Tab.name = ["inputs.py", "display.py"] ∧ s.active = none ∧ displayed s = [] := by decide

/-- So it is after the next start, for all tabs with other names. -/
theorem C157_start_witness (m : Memory) (c : String) (hm : m.current = some c) (names : List String) (h : c ∉ names) :
    displayed (run m (adds names)) = [] := by
  rw [(C156_displayed m (adds names)).1, (c156_start m c hm names).2.2.2.2, if_neg h]; rfl

end PySwitch.Props
