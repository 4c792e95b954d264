import Verif.Spec.Workspace
/-
Lemmas on the work on a configuration in the editor.
-/
namespace PySwitch.Workspace

/-- What remains the same in the store while a configuration is loaded. -/
def SameStore (a b : Store) : Prop :=
  a.presets = b.presets ∧ a.devices = b.devices ∧ a.folders = b.folders ∧ a.handle = b.handle

theorem SameStore.refl (a : Store) : SameStore a a := ⟨rfl, rfl, rfl, rfl⟩

theorem SameStore.stored {a b : Store} (h : SameStore a b) (p : Place) : stored a p = stored b p := by
  obtain ⟨h1, h2, h3, h4⟩ := h
  cases p <;> simp [Workspace.stored, h1, h2, h3, h4]

theorem SameStore.read {a b : Store} (h : SameStore a b) (env : Env) (p : Place) : read env a p = read env b p := by
  obtain ⟨h1, h2, h3, h4⟩ := h
  cases p <;> simp [Workspace.read, h1, h2, h3, h4]

/-- Both ways in which loading ends. -/
theorem load_cases (env : Env) (s : State) (p : Place) :
    ((load env s p).1.config = none ∧ (load env s p).2 = [.error] ∧ (load env s p).1.editors = s.editors ∧
      (load env s p).1.marker = false ∧ SameStore (load env s p).1.store s.store) ∨
    (∃ f, read env s.store p = some f ∧ env.parses f = true ∧
      (load env s p).1.config = some { place := p, files := f } ∧ (load env s p).2 = [.loaded p f] ∧
      (load env s p).1.editors = some (showFiles f) ∧ (load env s p).1.marker = false ∧
      (load env s p).1.parser = some (env.hardware f.inputs) ∧ SameStore (load env s p).1.store s.store) := by
  unfold load
  simp only
  cases hr : read env s.store p with
  | none => left; exact ⟨rfl, rfl, rfl, rfl, .refl _⟩
  | some f =>
    simp only
    by_cases hp : env.parses f = true
    · right
      refine ⟨f, rfl, hp, ?_⟩
      cases p <;> simp [hp, SameStore]
    · left
      cases p <;> simp [hp, SameStore]

theorem load_store (env : Env) (s : State) (p : Place) : SameStore (load env s p).1.store s.store := by
  rcases load_cases env s p with ⟨_, _, _, _, h⟩ | ⟨f, _, _, _, _, _, _, _, h⟩ <;> exact h

theorem load_marker (env : Env) (s : State) (p : Place) : (load env s p).1.marker = false := by
  rcases load_cases env s p with ⟨_, _, _, h, _⟩ | ⟨f, _, _, _, _, _, h, _, _⟩ <;> exact h

theorem load_unsaved (env : Env) (s : State) (p : Place) : (load env s p).1.unsaved = none := by
  unfold State.unsaved
  rcases load_cases env s p with ⟨h, _⟩ | ⟨f, _, _, h, _⟩ <;> rw [h] <;> rfl

theorem load_out (env : Env) (s : State) (p : Place) {o : Out} (h : o ∈ (load env s p).2) :
    o = .error ∨ ∃ f, o = .loaded p f := by
  rcases load_cases env s p with ⟨_, e, _⟩ | ⟨f, _, _, _, e, _⟩ <;> rw [e] at h
  · left; simpa using h
  · right; exact ⟨f, by simpa using h⟩

theorem goTo_cases (env : Env) (s : State) (p : Place) :
    goTo env s p = (s, []) ∨ goTo env s p = load env { s with location := some p } p := by
  unfold goTo
  split
  · exact .inl rfl
  · exact .inr rfl

theorem goTo_store (env : Env) (s : State) (p : Place) : SameStore (goTo env s p).1.store s.store := by
  rcases goTo_cases env s p with h | h <;> rw [h]
  · exact .refl _
  · exact load_store env _ p

theorem goTo_out (env : Env) (s : State) (p : Place) {o : Out} (h : o ∈ (goTo env s p).2) :
    o = .error ∨ ∃ f, o = .loaded p f := by
  rcases goTo_cases env s p with e | e <;> rw [e] at h
  · simp at h
  · exact load_out env _ p h

theorem unapplied_ne_none {s : State} {t : Tab} : s.unapplied t ≠ none ↔ ∃ e, s.editor t = some e ∧ e.dirty = true := by
  unfold State.unapplied
  cases h : s.editor t with
  | none => simp
  | some e => cases hd : e.dirty <;> simp [hd]

theorem unsaved_ne_none {s : State} : s.unsaved ≠ none ↔ ∃ c, s.config = some c ∧ c.dirty = true := by
  unfold State.unsaved
  cases h : s.config with
  | none => simp
  | some e => cases hd : e.dirty <;> simp [hd]

/-- The answers of the tabs, in words. -/
theorem askTabs_ok (s : State) (answer : Question → Bool) :
    (askTabs s answer).1 = true ↔ ∀ t, s.unapplied t ≠ none → answer (.discard t) = true := by
  simp only [unapplied_ne_none]
  unfold askTabs
  cases h : s.editors with
  | none => simp [State.editor, h]
  | some e =>
    obtain ⟨i, d⟩ := e
    have hi : s.editor .inputs = some i := by simp [State.editor, h]
    have hd : s.editor .display = some d := by simp [State.editor, h]
    constructor
    · intro hk t ⟨e, he, hdirty⟩
      cases t
      · rw [hi] at he; cases he
        cases ha : answer (.discard .inputs) with
        | true => rfl
        | false => simp [hdirty, ha] at hk
      · rw [hd] at he; cases he
        cases ha : answer (.discard .display) with
        | true => rfl
        | false => simp only [hdirty, ha] at hk; split at hk <;> simp at hk
    · intro hk
      have k1 := fun hx => hk .inputs ⟨i, hi, hx⟩
      have k2 := fun hx => hk .display ⟨d, hd, hx⟩
      cases hx : i.dirty <;> cases hy : d.dirty <;> simp_all

theorem askTabs_out (s : State) (answer : Question → Bool) {o : Out} (h : o ∈ (askTabs s answer).2) :
    ∃ t, o = .asked (.discard t) (answer (.discard t)) ∧ s.unapplied t ≠ none := by
  simp only [unapplied_ne_none]
  unfold askTabs at h
  cases he : s.editors with
  | none => simp [he] at h
  | some e =>
    obtain ⟨i, d⟩ := e
    have hi : s.editor .inputs = some i := by simp [State.editor, he]
    have hd : s.editor .display = some d := by simp [State.editor, he]
    rw [he] at h
    simp only at h
    by_cases h1 : (i.dirty && !answer (.discard .inputs)) = true
    · rw [if_pos h1] at h
      simp only [Bool.and_eq_true, Bool.not_eq_true'] at h1
      refine ⟨.inputs, ?_, i, hi, h1.1⟩
      simp only [List.mem_singleton] at h
      rw [h, h1.2]
    · rw [if_neg h1] at h
      have first : o ∈ (if i.dirty then [Out.asked (.discard .inputs) true] else []) →
          ∃ t, o = .asked (.discard t) (answer (.discard t)) ∧ ∃ e, s.editor t = some e ∧ e.dirty = true := by
        intro h2
        cases hx : i.dirty with
        | false => simp [hx] at h2
        | true =>
          simp only [hx, if_true, List.mem_singleton] at h2
          refine ⟨.inputs, ?_, i, hi, hx⟩
          rw [h2]
          simp [hx] at h1
          rw [h1]
      split at h
      · rename_i hy
        simp only [List.mem_append, List.mem_singleton] at h
        rcases h with h | h
        · exact first h
        · exact ⟨.display, h, d, hd, hy⟩
      · exact first h

/-- If the tabs agree, then every editor with unapplied text has asked. -/
theorem askTabs_asked (s : State) (answer : Question → Bool) (hok : (askTabs s answer).1 = true) {t : Tab}
    (h : s.unapplied t ≠ none) : .asked (.discard t) true ∈ (askTabs s answer).2 := by
  have ha := (askTabs_ok s answer).mp hok t h
  obtain ⟨e, he, hdirty⟩ := unapplied_ne_none.mp h
  unfold askTabs at hok ⊢
  cases hx : s.editors with
  | none => simp [State.editor, hx] at he
  | some e =>
    obtain ⟨i, d⟩ := e
    rw [hx] at hok
    cases t
    · simp [State.editor, hx] at he
      cases he
      cases hy : d.dirty <;> simp [hdirty, ha, hy]
    · simp [State.editor, hx] at he
      cases he
      simp only [hdirty, ha] at hok ⊢
      split
      · rename_i hc; simp [hc] at hok
      · simp

/-- The answer of the page to whether it may go on, in words. -/
theorem confirm_ok (s : State) (answer : Question → Bool) :
    (confirmIfDirty s answer).1 = true ↔ s.agreed answer := by
  unfold State.agreed
  rw [← askTabs_ok, unsaved_ne_none]
  unfold confirmIfDirty
  cases hk : (askTabs s answer).1 with
  | false => simp [hk]
  | true =>
    cases hc : s.config with
    | none => simp [hk]
    | some c => cases hd : c.dirty <;> simp [hk, hd]

theorem confirm_out (s : State) (answer : Question → Bool) {o : Out} (h : o ∈ (confirmIfDirty s answer).2) :
    ∃ q, o = .asked q (answer q) ∧ ((∃ t, q = .discard t ∧ s.unapplied t ≠ none) ∨ (q = .unsaved ∧ s.unsaved ≠ none)) := by
  have tabs : o ∈ (askTabs s answer).2 → ∃ q, o = .asked q (answer q) ∧
      ((∃ t, q = .discard t ∧ s.unapplied t ≠ none) ∨ (q = .unsaved ∧ s.unsaved ≠ none)) := by
    intro h
    obtain ⟨t, ht, hu⟩ := askTabs_out s answer h
    exact ⟨_, ht, .inl ⟨t, rfl, hu⟩⟩
  unfold confirmIfDirty at h
  simp only at h
  split at h
  · exact tabs h
  · cases hc : s.config with
    | none => rw [hc] at h; exact tabs h
    | some c =>
      rw [hc] at h
      simp only at h
      split at h
      · rename_i hd
        simp only [List.mem_append, List.mem_singleton] at h
        rcases h with h | h
        · exact tabs h
        · exact ⟨_, h, .inr ⟨rfl, unsaved_ne_none.mpr ⟨c, hc, hd⟩⟩⟩
      · exact tabs h

theorem confirm_asked (s : State) (answer : Question → Bool) (hok : (confirmIfDirty s answer).1 = true) :
    (∀ t, s.unapplied t ≠ none → .asked (.discard t) true ∈ (confirmIfDirty s answer).2) ∧
    (s.unsaved ≠ none → .asked .unsaved true ∈ (confirmIfDirty s answer).2) := by
  have ha := (confirm_ok s answer).mp hok
  have ht := (askTabs_ok s answer).mpr ha.1
  have hm := fun t h => askTabs_asked s answer ht (t := t) h
  unfold confirmIfDirty
  simp only [ht]
  constructor
  · intro t h
    have := hm t h
    cases hc : s.config with
    | none => simpa using this
    | some c =>
      simp only [Bool.not_true]
      cases hd : c.dirty <;> simp [this]
  · intro h
    obtain ⟨c, hc, hd⟩ := unsaved_ne_none.mp h
    have := ha.2 h
    simp [hc, hd, this]

theorem call_ok {env : Env} {s : State} {p : Place} {answer : Question → Bool} (h : s.agreed answer) :
    call env s p answer = ((goTo env s p).1, (confirmIfDirty s answer).2 ++ (goTo env s p).2) := by
  have := (confirm_ok s answer).mpr h
  unfold call
  simp [this]

theorem call_no {env : Env} {s : State} {p : Place} {answer : Question → Bool} (h : ¬ s.agreed answer) :
    call env s p answer = (s, (confirmIfDirty s answer).2) := by
  have : (confirmIfDirty s answer).1 = false := by
    cases hx : (confirmIfDirty s answer).1 with
    | false => rfl
    | true => exact absurd ((confirm_ok s answer).mp hx) h
  unfold call
  simp [this]

theorem call_store (env : Env) (s : State) (p : Place) (answer : Question → Bool) :
    SameStore (call env s p answer).1.store s.store := by
  by_cases h : s.agreed answer
  · rw [call_ok h]; exact goTo_store env s p
  · rw [call_no h]; exact .refl _

/-- What `call` can show. -/
theorem call_out (env : Env) (s : State) (p : Place) (answer : Question → Bool) {o : Out}
    (h : o ∈ (call env s p answer).2) :
    (∃ q, o = .asked q (answer q)) ∨ o = .error ∨ ∃ f, o = .loaded p f := by
  by_cases ha : s.agreed answer
  · rw [call_ok ha] at h
    simp only [List.mem_append] at h
    rcases h with h | h
    · obtain ⟨q, hq, _⟩ := confirm_out s answer h
      exact .inl ⟨q, hq⟩
    · exact .inr (goTo_out env s p h)
  · rw [call_no ha] at h
    obtain ⟨q, hq, _⟩ := confirm_out s answer h
    exact .inl ⟨q, hq⟩

theorem callFolder_in {env : Env} {s : State} {answer : Question → Bool} (h : s.inFolder) :
    callFolder env s answer = load env s .folder := by
  obtain ⟨⟨p, f, d⟩, hc, hp⟩ := h
  simp only at hp
  subst hp
  unfold callFolder
  rw [hc]

theorem callFolder_out_of {env : Env} {s : State} {answer : Question → Bool} (h : ¬ s.inFolder) :
    callFolder env s answer = call env s .folder answer := by
  unfold callFolder
  split
  · rename_i hc
    exact absurd ⟨_, hc, rfl⟩ h
  · rfl

theorem callFolder_store (env : Env) (s : State) (answer : Question → Bool) :
    SameStore (callFolder env s answer).1.store s.store := by
  by_cases h : s.inFolder
  · rw [callFolder_in h]; exact load_store env s _
  · rw [callFolder_out_of h]; exact call_store env s _ _

theorem callFolder_out (env : Env) (s : State) (answer : Question → Bool) {o : Out}
    (h : o ∈ (callFolder env s answer).2) :
    (∃ q, o = .asked q (answer q)) ∨ o = .error ∨ ∃ f, o = .loaded .folder f := by
  by_cases hf : s.inFolder
  · rw [callFolder_in hf] at h; exact .inr (load_out env s _ h)
  · rw [callFolder_out_of hf] at h; exact call_out env s _ _ h

/-- Saving to another place does not touch the editors; the files of the current configuration stay. -/
theorem saveAs_editors (s : State) (c : Config) (p : Place) (w : Written) :
    (saveAs s c p w).1.editors = s.editors := by
  unfold saveAs
  simp only
  split <;> rfl

theorem saveAs_cases (s : State) (c : Config) (p : Place) (w : Written) :
    ((saveAs s c p w).2 = true ∧ (doSave s.store p c.files w).2 = true ∧
      (saveAs s c p w).1 = resetDirty { s with store := (doSave s.store p c.files w).1, marker := true }) ∨
    ((saveAs s c p w).2 = false ∧ (doSave s.store p c.files w).2 = false ∧
      (saveAs s c p w).1 = { s with store := (doSave s.store p c.files w).1, marker := true }) := by
  unfold saveAs
  cases h : (doSave s.store p c.files w).2 <;> simp [h]

theorem getPreset_append_new (ps : List (String × Option Files)) (id : String) (d : Option Files)
    (h : ∀ p ∈ ps, p.1 ≠ id) : getPreset (ps ++ [(id, d)]) id = d := by
  induction ps with
  | nil => simp [getPreset]
  | cons a l ih =>
    have := h a (by simp)
    simp only [List.cons_append, getPreset, if_neg this]
    exact ih fun p hp => h p (by simp [hp])

theorem getPreset_append_other (ps : List (String × Option Files)) (id id' : String) (d : Option Files)
    (h : id ≠ id') : getPreset (ps ++ [(id, d)]) id' = getPreset ps id' := by
  induction ps with
  | nil => simp [getPreset, h]
  | cons a l ih => simp only [List.cons_append, getPreset, ih]

theorem getPreset_filter_other (ps : List (String × Option Files)) (id id' : String) (h : id ≠ id') :
    getPreset (ps.filter fun p => p.1 != id) id' = getPreset ps id' := by
  induction ps with
  | nil => rfl
  | cons a l ih =>
    by_cases ha : a.1 = id
    · simp [ha, ih, getPreset, h]
    · have : (a.1 != id) = true := by simpa using ha
      simp [this, getPreset, ih]

theorem getPreset_filter_same (ps : List (String × Option Files)) (id : String) :
    getPreset (ps.filter fun p => p.1 != id) id = none := by
  induction ps with
  | nil => rfl
  | cons a l ih =>
    by_cases ha : a.1 = id
    · simp [ha, ih]
    · have : (a.1 != id) = true := by simpa using ha
      simp [this, getPreset, ih, ha]

theorem getPreset_set (ps : List (String × Option Files)) (id id' : String) (d : Option Files) :
    getPreset (setPreset ps id d) id' = if id = id' then d else getPreset ps id' := by
  unfold setPreset
  split
  · rename_i h
    subst h
    exact getPreset_append_new _ _ _ (by simp)
  · rename_i h
    rw [getPreset_append_other _ _ _ _ h, getPreset_filter_other _ _ _ h]

theorem getPreset_delete (ps : List (String × Option Files)) (id id' : String) :
    getPreset (deletePreset ps id) id' = if id = id' then none else getPreset ps id' := by
  unfold deletePreset
  split
  · rename_i h; subst h; exact getPreset_filter_same _ _
  · rename_i h; exact getPreset_filter_other _ _ _ h

theorem newName_some {ps : List (String × Option Files)} {names : List String} {id : String}
    (h : newName ps names = some id) : id ∈ names ∧ getPreset ps id = none ∧ id ≠ "" := by
  induction names with
  | nil => simp [newName] at h
  | cons a l ih =>
    simp only [newName] at h
    split at h
    · simp at h
    · split at h
      · obtain ⟨h1, h2, h3⟩ := ih h
        exact ⟨by simp [h1], h2, h3⟩
      · rename_i h1 h2
        cases h
        refine ⟨by simp, ?_, h1⟩
        simpa [hasPreset] using h2

/-- What a successful attempt to save leaves in the store. -/
theorem doSave_ok {st : Store} {p : Place} {f : Files} {w : Written} (h : (doSave st p f w).2 = true) :
    stored (doSave st p f w).1 p = some f ∧ (∀ path, p ≠ .web path) ∧ (doSave st p f w).1.handle = st.handle := by
  unfold doSave at h ⊢
  cases p with
  | web path => simp at h
  | preset id =>
    simp only at h ⊢
    split at h
    · rename_i hw
      simp [hw, stored, getPreset_set]
    · simp at h
  | device port =>
    simp only at h ⊢
    cases hd : st.devices port with
    | none => simp [hd] at h
    | some old =>
      simp only [hd] at h ⊢
      cases w <;> simp_all [stored, Written.apply]
  | folder =>
    simp only at h ⊢
    cases hh : st.handle with
    | none => simp [hh] at h
    | some dir =>
      simp only [hh] at h ⊢
      cases hf : st.folders dir with
      | none => simp [hf] at h
      | some old =>
        simp only [hf] at h ⊢
        have hw : w = .both := by simpa using h
        simp [stored, hw, Written.apply]

/-- What an attempt to save can change. -/
theorem doSave_frame (st : Store) (p : Place) (f : Files) (w : Written) :
    (∀ id, p ≠ .preset id → getPreset (doSave st p f w).1.presets id = getPreset st.presets id) ∧
    (∀ port, p ≠ .device port → (doSave st p f w).1.devices port = st.devices port) ∧
    (∀ dir, (p ≠ .folder ∨ st.handle ≠ some dir) → (doSave st p f w).1.folders dir = st.folders dir) := by
  unfold doSave
  cases p with
  | web path => simp
  | preset id =>
    refine ⟨?_, ?_, ?_⟩ <;> simp only
    · intro id' h
      have : id ≠ id' := fun e => h (by rw [e])
      split
      · simp [getPreset_set, this]
      · rfl
    · intro port h; split <;> rfl
    · intro dir h; split <;> rfl
  | device port =>
    cases hd : st.devices port with
    | none => simp [hd]
    | some old =>
      simp only [hd]
      refine ⟨?_, ?_, ?_⟩
      · intro id' h
        cases w <;> rfl
      · intro q h
        have : q ≠ port := fun e => h (by rw [e])
        cases w <;> simp [this]
      · intro dir h; cases w <;> rfl
  | folder =>
    cases hh : st.handle with
    | none => simp
    | some dir =>
      cases hf : st.folders dir with
      | none => simp [hf]
      | some old =>
        simp only [hf]
        refine ⟨by simp, by simp, ?_⟩
        intro d h
        rcases h with h | h
        · exact absurd rfl h
        · have : d ≠ dir := fun e => h (by rw [e])
          simp [this]

end PySwitch.Workspace
