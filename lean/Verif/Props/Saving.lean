import Verif.Spec.Saving
/-!
C153: Saving does not touch the configuration and stores nothing but its contents; failing does not hide a change.
C154: A configuration without the mark for unsaved changes is stored as it is.
-/
namespace PySwitch.Props
open PySwitch.Saving
open PySwitch.Workspace (Files Tab)

/-! ### The data -/

theorem c153_setLast (cells : List Files) (h : cells ≠ []) (g : Files → Files) :
    setLast cells g ≠ [] ∧ (setLast cells g).length = cells.length ∧ (setLast cells g).getLast?.getD ⟨"", ""⟩ = g (cells.getLast?.getD ⟨"", ""⟩) := by
  induction cells with
  | nil => exact absurd rfl h
  | cons x r ih =>
    cases r with
    | nil => exact ⟨by simp [setLast], rfl, rfl⟩
    | cons y r =>
      obtain ⟨h1, h2, h3⟩ := ih (by simp)
      refine ⟨by simp [setLast], by simpa [setLast] using h2, ?_⟩
      show (x :: setLast (y :: r) g).getLast?.getD _ = _
      cases hs : setLast (y :: r) g with
      | nil => exact absurd hs h1
      | cons z q =>
        rw [hs] at h3
        simpa [List.getLast?_cons_cons] using h3

theorem c153_cells (kind : Kind) (s : State) (e : Ev) (h : s.cells ≠ []) :
    (s.step kind e).cells ≠ [] ∧ (s.step kind e).data = edited s.data [e] := by
  cases e with
  | code t x =>
    obtain ⟨h1, -, h3⟩ := c153_setLast s.cells h fun f => f.put t x
    exact ⟨h1, h3⟩
  | replace f =>
    refine ⟨by simp [State.step], ?_⟩
    show (s.cells ++ [f]).getLast?.getD _ = f
    simp
  | save =>
    simp only [State.step]
    split <;> exact ⟨h, rfl⟩
  | wrote k t =>
    cases t <;> simp only [State.step]
    · split
      · split <;> exact ⟨h, rfl⟩
      · exact ⟨h, rfl⟩
    · split
      · split
        · split <;> exact ⟨h, rfl⟩
        · exact ⟨h, rfl⟩
      · exact ⟨h, rfl⟩
  | finished k =>
    simp only [State.step]
    split
    · split <;> exact ⟨h, rfl⟩
    · exact ⟨h, rfl⟩
  | failed k => exact ⟨h, rfl⟩

theorem c153_edited_append (f : Files) (a b : List Ev) : edited f (a ++ b) = edited (edited f a) b := by
  induction a generalizing f with
  | nil => rfl
  | cons e a ih => cases e <;> simp only [List.cons_append, edited, ih]

theorem c153_data_gen (kind : Kind) : ∀ (es : List Ev) (s : State), s.cells ≠ [] →
    (es.foldl (State.step kind) s).cells ≠ [] ∧ (es.foldl (State.step kind) s).data = edited s.data es
  | [], _, h => ⟨h, rfl⟩
  | e :: es, s, h => by
    obtain ⟨h1, h2⟩ := c153_cells kind s e h
    obtain ⟨i1, i2⟩ := c153_data_gen kind es _ h1
    refine ⟨i1, ?_⟩
    show (es.foldl (State.step kind) (s.step kind e)).data = _
    rw [i2, h2, ← c153_edited_append]; rfl

/-- Saving never changes the configuration: whatever is going on, it is what the user has made of it. -/
theorem C153_data (kind : Kind) (f : Files) (es : List Ev) : (run kind f es).data = edited f es :=
  (c153_data_gen kind es (loaded f) (by simp [loaded])).2

/-! ### The mark -/

theorem c153_dirty_step (kind : Kind) (s : State) (e : Ev) (h : s.dirty = true) (he : ∀ k, e ≠ .finished k) : (s.step kind e).dirty = true := by
  cases e with
  | code t x => rfl
  | replace f => rfl
  | save => simp only [State.step]; split <;> exact h
  | wrote k t =>
    cases t <;> simp only [State.step]
    · split
      · split <;> exact h
      · exact h
    · split
      · split
        · split <;> exact h
        · exact h
      · exact h
  | finished k => exact absurd rfl (he k)
  | failed k => exact h

theorem c153_dirty_run (kind : Kind) : ∀ (es : List Ev) (s : State), s.dirty = true → (∀ e ∈ es, ∀ k, e ≠ .finished k) →
    (es.foldl (State.step kind) s).dirty = true
  | [], _, h, _ => h
  | e :: es, s, h, he =>
    c153_dirty_run kind es _ (c153_dirty_step kind s e h (he e List.mem_cons_self)) fun x hx => he x (List.mem_cons_of_mem _ hx)

/-- After a change, the mark stays as long as no saving is finished. So a saving which fails does not hide it. -/
theorem C153_marked (kind : Kind) (f : Files) (before after : List Ev) (e : Ev) (he : IsEdit e) (ha : ∀ x ∈ after, ∀ k, x ≠ .finished k) :
    (run kind f (before ++ e :: after)).dirty = true := by
  unfold run
  rw [List.foldl_append, List.foldl_cons]
  refine c153_dirty_run kind after _ ?_ ha
  cases e with
  | code t x => rfl
  | replace f => rfl
  | save => exact he.elim
  | wrote k t => exact he.elim
  | finished k => exact he.elim
  | failed k => exact he.elim

/-! ### Where the stored files come from -/

/-- The configuration has been like this at some time. -/
theorem c153_was_mono (f : Files) (es : List Ev) (e : Ev) (x : Files) (h : Was f es x) : Was f (es ++ [e]) x := by
  obtain ⟨n, hn, hx⟩ := h
  exact ⟨n, by simp; omega, by rw [List.take_append_of_le_length hn]; exact hx⟩

theorem c153_was_now (f : Files) (es : List Ev) : Was f es (edited f es) := ⟨es.length, Nat.le_refl _, by rw [List.take_length]⟩

/-- All texts around come from the configuration. -/
def c153_from (f : Files) (es : List Ev) (s : State) : Prop :=
  (∀ c ∈ s.cells, Was f es c) ∧ (∃ x, Was f es x ∧ s.stored.inputs = x.inputs) ∧ (∃ x, Was f es x ∧ s.stored.display = x.display) ∧
    ∀ v ∈ s.saves, (∃ x, Was f es x ∧ v.inputs = x.inputs) ∧ ∀ d, v.display = some d → ∃ x, Was f es x ∧ d = x.display

theorem c153_mem_setLast (g : Files → Files) : ∀ (cells : List Files), ∀ c ∈ setLast cells g, c ∈ cells ∨ c = g (cells.getLast?.getD ⟨"", ""⟩)
  | [], c, h => by simp [setLast] at h
  | [x], c, h => Or.inr (by simpa [setLast] using h)
  | x :: y :: r, c, h => by
    simp only [setLast, List.mem_cons] at h
    rcases h with rfl | h
    · exact Or.inl List.mem_cons_self
    · rcases c153_mem_setLast g (y :: r) c h with h | h
      · exact Or.inl (List.mem_cons_of_mem _ h)
      · exact Or.inr (by rw [List.getLast?_cons_cons]; exact h)

theorem c153_from_step (kind : Kind) (f : Files) (es : List Ev) (e : Ev) (s : State) (hs : s.cells ≠ []) (hd : s.data = edited f es)
    (h : c153_from f es s) : c153_from f (es ++ [e]) (s.step kind e) := by
  obtain ⟨h1, ⟨x, x1, x2⟩, ⟨y, y1, y2⟩, h4⟩ := h
  have M := fun z => c153_was_mono f es e z
  have k1 : ∀ c ∈ s.cells, Was f (es ++ [e]) c := fun c hc => M c (h1 c hc)
  have k2 : ∃ x, Was f (es ++ [e]) x ∧ s.stored.inputs = x.inputs := ⟨x, M x x1, x2⟩
  have k3 : ∃ x, Was f (es ++ [e]) x ∧ s.stored.display = x.display := ⟨y, M y y1, y2⟩
  have k4 : ∀ v ∈ s.saves, (∃ x, Was f (es ++ [e]) x ∧ v.inputs = x.inputs) ∧ ∀ d, v.display = some d → ∃ x, Was f (es ++ [e]) x ∧ d = x.display :=
    fun v hv => ⟨let ⟨z, z1, z2⟩ := (h4 v hv).1; ⟨z, M z z1, z2⟩, fun d hd => let ⟨z, z1, z2⟩ := (h4 v hv).2 d hd; ⟨z, M z z1, z2⟩⟩
  have now : Was f (es ++ [e]) (s.step kind e).data := by
    rw [(c153_cells kind s e hs).2, hd, ← c153_edited_append]
    exact c153_was_now f (es ++ [e])
  have old : Was f (es ++ [e]) s.data := by rw [hd]; exact M _ (c153_was_now f es)
  cases e with
  | code t z =>
    refine ⟨fun c hc => ?_, k2, k3, k4⟩
    rcases c153_mem_setLast _ s.cells c hc with hc | rfl
    · exact k1 c hc
    · have := now
      rwa [(c153_cells kind s _ hs).2] at this
  | replace g =>
    refine ⟨fun c hc => ?_, k2, k3, k4⟩
    rcases List.mem_append.1 hc with hc | hc
    · exact k1 c hc
    · rcases List.mem_singleton.1 hc with rfl
      have := now
      rwa [(c153_cells kind s _ hs).2] at this
  | save =>
    simp only [State.step]
    split
    · exact ⟨k1, k2, k3, k4⟩
    · refine ⟨k1, k2, k3, fun v hv => ?_⟩
      rcases List.mem_append.1 hv with hv | hv
      · exact k4 v hv
      · rcases List.mem_singleton.1 hv with rfl
        refine ⟨⟨_, old, rfl⟩, fun d hd => ?_⟩
        cases kind with
        | folder => exact ⟨_, old, (Option.some.inj hd).symm⟩
        | controller => exact absurd hd (by simp [State.begin])
  | wrote k t =>
    cases t with
    | inputs =>
      simp only [State.step]
      split
      · rename_i v hv
        have hm := List.mem_of_find?_eq_some hv
        split
        · exact ⟨k1, k2, k3, k4⟩
        · refine ⟨k1, (k4 v hm).1, k3, fun w hw => ?_⟩
          unfold State.update at hw
          obtain ⟨u, hu, rfl⟩ := List.mem_map.1 hw
          split
          · refine ⟨(k4 u hu).1, fun d hd => ?_⟩
            simp only [Save.afterInputs] at hd
            cases hud : u.display with
            | some d' => rw [hud] at hd; cases hd; exact (k4 u hu).2 _ hud
            | none =>
              rw [hud] at hd
              obtain ⟨c, hc, rfl⟩ := Option.map_eq_some_iff.1 hd
              exact ⟨c, k1 c (List.mem_of_getElem? hc), rfl⟩
          · exact k4 u hu
      · exact ⟨k1, k2, k3, k4⟩
    | display =>
      simp only [State.step]
      split
      · rename_i v hv
        have hm := List.mem_of_find?_eq_some hv
        split
        · rename_i d hd
          split
          · exact ⟨k1, k2, k3, k4⟩
          · refine ⟨k1, k2, (k4 v hm).2 d hd, fun w hw => ?_⟩
            unfold State.update at hw
            obtain ⟨u, hu, rfl⟩ := List.mem_map.1 hw
            split
            · exact k4 u hu
            · exact k4 u hu
        · exact ⟨k1, k2, k3, k4⟩
      · exact ⟨k1, k2, k3, k4⟩
  | finished k =>
    simp only [State.step]
    split
    · split
      · exact ⟨k1, k2, k3, fun w hw => k4 w (List.mem_filter.1 hw).1⟩
      · exact ⟨k1, k2, k3, k4⟩
    · exact ⟨k1, k2, k3, k4⟩
  | failed k => exact ⟨k1, k2, k3, fun w hw => k4 w (List.mem_filter.1 hw).1⟩

theorem c153_from_run (kind : Kind) (f : Files) (es : List Ev) : c153_from f es (run kind f es) := by
  suffices H : ∀ l : List Ev, c153_from f l.reverse (run kind f l.reverse) by
    have := H es.reverse
    simpa using this
  intro l
  induction l with
  | nil =>
    have : Was f [] f := ⟨0, Nat.le_refl _, rfl⟩
    exact ⟨fun c hc => by simp [run, loaded] at hc; rw [hc]; exact this, ⟨f, this, rfl⟩, ⟨f, this, rfl⟩, fun v hv => by simp [run, loaded] at hv⟩
  | cons e l ih =>
    rw [List.reverse_cons]
    have hr : run kind f (l.reverse ++ [e]) = (run kind f l.reverse).step kind e := by simp [run]
    rw [hr]
    exact c153_from_step kind f _ e _ (c153_data_gen kind _ (loaded f) (by simp [loaded])).1 (C153_data kind f _) ih

/-- Each file at the place of the configuration is one the configuration has had at some time, whatever happens in between. -/
theorem C153_stored (kind : Kind) (f : Files) (es : List Ev) (t : Tab) : ∃ x, Was f es x ∧ (run kind f es).stored.text t = x.text t := by
  obtain ⟨-, h2, h3, -⟩ := c153_from_run kind f es
  cases t with
  | inputs => exact h2
  | display => exact h3

/-! ### A folder gets what there was at the beginning -/

theorem c153_once (f : Files) : ∀ (mid : List Ev) (s : State),
    ((∃ v, s.saves = [v] ∧ v.inputs = f.inputs ∧ v.display = some f.display ∧ (v.wroteInputs = true → s.stored.inputs = f.inputs) ∧
      (v.wroteDisplay = true → s.stored.display = f.display)) ∨ s.saves = [] ∧ s.stored = f) →
    (∀ e ∈ mid, e ≠ .save ∧ ∀ k, e ≠ .failed k) →
    (mid.foldl (State.step .folder) s).saves = [] → (mid.foldl (State.step .folder) s).stored = f
  | [], s, h, _, hs => by
    rcases h with ⟨v, hv, -⟩ | ⟨-, h⟩
    · have : s.saves = [] := hs
      rw [hv] at this; simp at this
    · exact h
  | e :: mid, t, h, hm, hs => by
    refine c153_once f mid (t.step .folder e) ?_ (fun x hx => hm x (List.mem_cons_of_mem _ hx)) hs
    have he := hm e List.mem_cons_self
    cases e with
    | code a b => exact h
    | replace g => exact h
    | save => exact absurd rfl he.1
    | failed a => exact absurd rfl (he.2 a)
    | wrote a b =>
      rcases h with ⟨v, hv, h1, h2, h3, h4⟩ | ⟨h0, hf⟩
      · cases b with
        | inputs =>
          simp only [State.step, hv, List.find?]
          cases hk : v.key == a with
          | false => exact Or.inl ⟨v, hv, h1, h2, h3, h4⟩
          | true =>
            have hk' : v.key = a := by simpa using hk
            dsimp only
            split
            · exact Or.inl ⟨v, hv, h1, h2, h3, h4⟩
            · refine Or.inl ⟨Save.afterInputs t.cells v, ?_, h1, ?_, fun _ => h1, h4⟩
              · simp [State.update, hv, hk']
              · simp [Save.afterInputs, h2]
        | display =>
          simp only [State.step, hv, List.find?]
          cases hk : v.key == a with
          | false => exact Or.inl ⟨v, hv, h1, h2, h3, h4⟩
          | true =>
            have hk' : v.key = a := by simpa using hk
            dsimp only
            rw [h2]
            dsimp only
            split
            · exact Or.inl ⟨v, hv, h1, h2, h3, h4⟩
            · refine Or.inl ⟨{ v with wroteDisplay := true }, ?_, h1, h2, h3, fun _ => rfl⟩
              simp [State.update, hv, hk']
      · refine Or.inr ?_
        cases b <;> simp [State.step, h0, hf]
    | finished a =>
      rcases h with ⟨v, hv, h1, h2, h3, h4⟩ | ⟨h0, hf⟩
      · simp only [State.step, hv, List.find?]
        cases hk : v.key == a with
        | false => exact Or.inl ⟨v, hv, h1, h2, h3, h4⟩
        | true =>
          have hk' : v.key = a := by simpa using hk
          dsimp only
          split
          · rename_i hw
            rw [Bool.and_eq_true] at hw
            refine Or.inr ⟨by simp [hk'], ?_⟩
            have e1 := h3 hw.1
            have e2 := h4 hw.2
            show t.stored = f
            cases hs : t.stored
            cases f
            rw [hs] at e1 e2
            simp only at e1 e2
            rw [e1, e2]
          · exact Or.inl ⟨v, hv, h1, h2, h3, h4⟩
      · exact Or.inr (by simp [State.step, h0, hf])

/-- One saving to a folder which does not fail: as soon as it is over, the folder has the configuration as it was when saving was started, both
files of the same time, no matter what has been changed in the meantime. -/
theorem C153_folder (f : Files) (before mid : List Ev) (h0 : (run .folder f before).saves = []) (hm : ∀ e ∈ mid, e ≠ .save ∧ ∀ k, e ≠ .failed k)
    (h : (run .folder f (before ++ .save :: mid)).saves = []) : (run .folder f (before ++ .save :: mid)).stored = edited f before := by
  rw [← C153_data .folder f before]
  unfold run at h ⊢
  rw [List.foldl_append, List.foldl_cons] at h ⊢
  refine c153_once _ mid _ (Or.inl ⟨State.begin .folder (run .folder f before), ?_, rfl, rfl, ?_, ?_⟩) hm h
  · show (State.step .folder (run .folder f before) .save).saves = _
    simp [State.step, h0]
  · simp [State.begin]
  · simp [State.begin]

/-! ### What is stored -/

/-- If the user waits, everything which is going on has the data of the configuration. -/
def c153_inv (s : State) : Prop :=
  s.cells ≠ [] ∧ (s.dirty = false → s.stored = s.data) ∧
    ∀ v ∈ s.saves, v.cell = s.cells.length - 1 ∧ v.inputs = s.data.inputs ∧ (∀ d, v.display = some d → d = s.data.display) ∧
      (v.wroteInputs = true → s.stored.inputs = s.data.inputs) ∧ (v.wroteDisplay = true → s.stored.display = s.data.display)

theorem c153_last (cells : List Files) (h : cells ≠ []) : cells[cells.length - 1]? = some (cells.getLast?.getD ⟨"", ""⟩) := by
  rw [List.getLast?_eq_getElem?]
  have : cells.length - 1 < cells.length := by
    have := List.length_pos_iff.2 h
    omega
  rw [List.getElem?_eq_getElem this]; rfl

theorem c153_inv_step (kind : Kind) (s : State) (e : Ev) (hp : IsEdit e → s.saves = []) (h : c153_inv s) : c153_inv (s.step kind e) := by
  obtain ⟨h1, h2, h3⟩ := h
  cases e with
  | code t x =>
    refine ⟨(c153_setLast s.cells h1 _).1, fun hd => absurd hd (by simp [State.step]), fun v hv => ?_⟩
    have : v ∈ s.saves := hv
    rw [hp trivial] at this; simp at this
  | replace f =>
    refine ⟨by simp [State.step], fun hd => absurd hd (by simp [State.step]), fun v hv => ?_⟩
    have : v ∈ s.saves := hv
    rw [hp trivial] at this; simp at this
  | save =>
    simp only [State.step]
    split
    · exact ⟨h1, h2, h3⟩
    · refine ⟨h1, h2, fun v hv => ?_⟩
      rcases List.mem_append.1 hv with hv | hv
      · exact h3 v hv
      · rcases List.mem_singleton.1 hv with rfl
        refine ⟨rfl, rfl, fun d hd => ?_, by simp [State.begin], by simp [State.begin]⟩
        cases kind with
        | folder => exact (Option.some.inj hd).symm
        | controller => exact absurd hd (by simp [State.begin])
  | wrote k t =>
    cases t with
    | inputs =>
      simp only [State.step]
      split
      · rename_i v hv
        have hm := List.mem_of_find?_eq_some hv
        split
        · exact ⟨h1, h2, h3⟩
        · obtain ⟨-, c2, -⟩ := h3 v hm
          have hst : ∀ f : Files, f = s.data → (f.put .inputs v.inputs) = s.data := by
            rintro f rfl; rw [c2]; cases hdd : s.data; rfl
          refine ⟨h1, fun hd => hst _ (h2 hd), fun w hw => ?_⟩
          unfold State.update at hw
          obtain ⟨u, hu, rfl⟩ := List.mem_map.1 hw
          obtain ⟨u1, u2, u3, u4, u5⟩ := h3 u hu
          split
          · refine ⟨u1, u2, fun d hd => ?_, fun _ => c2, u5⟩
            simp only [Save.afterInputs] at hd
            cases hud : u.display with
            | some d' => rw [hud] at hd; cases hd; exact u3 _ hud
            | none =>
              rw [hud] at hd
              simp only [u1, c153_last s.cells h1, Option.map_some, Option.some.injEq] at hd
              exact hd.symm
          · exact ⟨u1, u2, u3, fun _ => c2, u5⟩
      · exact ⟨h1, h2, h3⟩
    | display =>
      simp only [State.step]
      split
      · rename_i v hv
        have hm := List.mem_of_find?_eq_some hv
        split
        · rename_i d hd
          split
          · exact ⟨h1, h2, h3⟩
          · have c3 := (h3 v hm).2.2.1 d hd
            have hst : ∀ f : Files, f = s.data → (f.put .display d) = s.data := by
              rintro f rfl; rw [c3]; cases hdd : s.data; rfl
            refine ⟨h1, fun hd => hst _ (h2 hd), fun w hw => ?_⟩
            unfold State.update at hw
            obtain ⟨u, hu, rfl⟩ := List.mem_map.1 hw
            obtain ⟨u1, u2, u3, u4, u5⟩ := h3 u hu
            split
            · exact ⟨u1, u2, u3, u4, fun _ => c3⟩
            · exact ⟨u1, u2, u3, u4, fun _ => c3⟩
        · exact ⟨h1, h2, h3⟩
      · exact ⟨h1, h2, h3⟩
  | finished k =>
    simp only [State.step]
    split
    · rename_i v hv
      have hm := List.mem_of_find?_eq_some hv
      split
      · rename_i hw
        rw [Bool.and_eq_true] at hw
        obtain ⟨-, -, -, c4, c5⟩ := h3 v hm
        refine ⟨h1, fun _ => ?_, fun w hw' => h3 w (List.mem_filter.1 hw').1⟩
        have e1 := c4 hw.1
        have e2 := c5 hw.2
        show s.stored = s.data
        cases hs : s.stored
        cases hd : s.data
        rw [hs, hd] at e1 e2
        simp only at e1 e2
        rw [e1, e2]
      · exact ⟨h1, h2, h3⟩
    · exact ⟨h1, h2, h3⟩
  | failed k => exact ⟨h1, h2, fun w hw => h3 w (List.mem_filter.1 hw).1⟩

theorem c153_inv_run (kind : Kind) (f : Files) (es : List Ev) (h : Patient kind f es) : c153_inv (run kind f es) := by
  suffices H : ∀ l : List Ev, Patient kind f l.reverse → c153_inv (run kind f l.reverse) by
    have := H es.reverse (by simpa using h)
    simpa using this
  intro l
  induction l with
  | nil => intro _; exact ⟨by simp [run, loaded], fun _ => rfl, fun v hv => by simp [run, loaded] at hv⟩
  | cons e l ih =>
    intro hp
    rw [List.reverse_cons] at hp ⊢
    have hr : run kind f (l.reverse ++ [e]) = (run kind f l.reverse).step kind e := by simp [run]
    rw [hr]
    refine c153_inv_step kind _ e (fun he => hp l.reverse e [] rfl he) (ih ?_)
    intro before x after hx hxe
    exact hp before x (after ++ [e]) (by rw [hx]; simp) hxe

/-- If the user does not change the configuration while it is being saved: without the mark, the files at the place of the configuration are just
what the user has made of it. For folders and controllers, with any number of savings going on at the same time, failing or not. (Partial: see
the witnesses for changes while saving.) -/
theorem C154_clean_partial (kind : Kind) (f : Files) (es : List Ev) (h : Patient kind f es) (hd : (run kind f es).dirty = false) :
    (run kind f es).stored = edited f es := by
  rw [← C153_data kind f es]
  exact (c153_inv_run kind f es h).2.1 hd

/-! ### Examples -/

/-- A change is saved; a second saving fails. -/
example :
    let es : List Ev := [.code .inputs "b", .save, .wrote 0 .inputs, .wrote 0 .display, .finished 0, .replace ⟨"c", "e"⟩, .save, .wrote 1 .inputs, .failed 1]
    (run .controller ⟨"a", "d"⟩ (es.take 5)).dirty = false ∧ (run .controller ⟨"a", "d"⟩ (es.take 5)).stored = ⟨"b", "d"⟩ ∧
      (run .controller ⟨"a", "d"⟩ es).dirty = true ∧ (run .controller ⟨"a", "d"⟩ es).stored = ⟨"c", "d"⟩ := by decide

/-- A saving to a folder with a change in between. -/
example :
    (run .folder ⟨"a", "d"⟩ ([.code .inputs "b"] ++ .save :: [.wrote 0 .display, .replace ⟨"c", "e"⟩, .wrote 0 .inputs, .finished 0])).saves = [] ∧
      (run .folder ⟨"a", "d"⟩ ([.code .inputs "b"] ++ .save :: [.wrote 0 .display, .replace ⟨"c", "e"⟩, .wrote 0 .inputs, .finished 0])).stored =
        ⟨"b", "d"⟩ := by decide

/-- The user waits. -/
example : Patient .folder ⟨"a", "d"⟩ [.code .inputs "b", .save, .wrote 0 .display, .wrote 0 .inputs, .finished 0] := by
  intro before e after h he
  match before, h with
  | [], _ => rfl
  | [_], h => simp at h; rw [← h.2.1] at he; exact he.elim
  | [_, _], h => simp at h; rw [← h.2.2.1] at he; exact he.elim
  | [_, _, _], h => simp at h; rw [← h.2.2.2.1] at he; exact he.elim
  | [_, _, _, _], h => simp at h; rw [← h.2.2.2.2.1] at he; exact he.elim
  | _ :: _ :: _ :: _ :: _ :: r, h => simp at h

/-! ### Disagreements -/

/-- A change while the configuration is saved to a folder gets lost: it is not stored, and not marked. -/
theorem C154_lost_witness :
    let s := run .folder ⟨"a", "d"⟩ [.code .inputs "b", .save, .code .inputs "c", .wrote 0 .inputs, .wrote 0 .display, .finished 0]
    s.saves = [] ∧ s.dirty = false ∧ s.stored = ⟨"b", "d"⟩ ∧ s.data = ⟨"c", "d"⟩ := by decide

/-- A controller may get the first file from before and the second one from after the changes: files which never belonged together. -/
theorem C154_torn_witness :
    let es : List Ev := [.save, .code .inputs "b", .code .display "e", .wrote 0 .inputs, .wrote 0 .display, .finished 0]
    (run .controller ⟨"a", "d"⟩ es).dirty = false ∧ (run .controller ⟨"a", "d"⟩ es).stored = ⟨"a", "e"⟩ ∧
      ∀ n ≤ es.length, edited ⟨"a", "d"⟩ (es.take n) ≠ ⟨"a", "e"⟩ := by decide

/-- Two savings to a folder at the same time: the earlier one may be the last to write. -/
theorem C154_order_witness :
    let s := run .folder ⟨"a", "d"⟩ [.save, .code .inputs "b", .save, .wrote 1 .inputs, .wrote 1 .display, .finished 1, .wrote 0 .inputs,
      .wrote 0 .display, .finished 0]
    s.saves = [] ∧ s.dirty = false ∧ s.stored = ⟨"a", "d"⟩ ∧ s.data = ⟨"b", "d"⟩ := by decide

end PySwitch.Props
