import Verif.Spec.ParserSync

/-
C164, C165: what the editor shows and the code of the configuration.
-/
namespace PySwitch.Props
open PySwitch.ParserSync PySwitch.ParserSync.Spec

namespace C164

variable {C T : Type}

/-- After every event: the trees are loaded, and the parser is the one for the hardware of the code. -/
structure Loaded (env : Env C T) (s : ParserSync.State C T) : Prop where
  inputs : ∃ a, s.inputsTree = some a
  display : ∃ b, s.displayTree = some b
  py : ∃ c, s.py = some (env.hardware s.files.inputs, c)

/-- If python accepts the code, then everything is about this code. -/
def Synced (env : Env C T) (s : ParserSync.State C T) : Prop :=
  ∀ a b, fromSource env s.files = some (a, b) →
    s.csts = some (a, b) ∧ s.inputsTree = some (env.inputsTree a) ∧ s.displayTree = some (env.displayTree b) ∧
    s.shown = some (env.inputsTree a, env.displayTree b)

theorem view_eq (env : Env C T) (f : Files) : view env f = (fromSource env f).map fun c => (env.inputsTree c.1, env.displayTree c.2) := by
  unfold view fromSource
  cases env.parse f.inputs <;> cases env.parse f.display <;> rfl

theorem next_apply (env : Env C T) (f : Files) (t : Tab) (x : String) : next env f (.apply t x) = some (f.put t x) := by
  cases t <;> rfl

theorem edited_eq (env : Env C T) (f : Files) (g : T × T → T × T) : edited env f g = (fromSource env f).map fun c =>
    ⟨env.print (env.generate (g (env.inputsTree c.1, env.displayTree c.2)) c).1,
      env.print (env.generate (g (env.inputsTree c.1, env.displayTree c.2)) c).2⟩ := by
  unfold edited fromSource
  cases env.parse f.inputs <;> cases env.parse f.display <;> rfl

theorem initTrees_loaded (env : Env C T) (s : ParserSync.State C T) (hi : ∃ a, s.inputsTree = some a) (hd : ∃ b, s.displayTree = some b) :
    initTrees env s = (s, true) := by
  obtain ⟨a, ha⟩ := hi
  obtain ⟨b, hb⟩ := hd
  obtain ⟨f, d, p, i, t, sh⟩ := s
  simp only at ha hb
  subst ha hb
  rfl

theorem init_loaded {env : Env C T} {s : ParserSync.State C T} (h : Loaded env s) : ParserSync.init env s = (s, true) := by
  obtain ⟨c, hc⟩ := h.py
  unfold ParserSync.init
  simp only [hc, if_true]
  have := initTrees_loaded env s h.inputs h.display
  rw [← hc]
  exact this

/-- Showing code which has just been parsed. -/
theorem applyConfig_fresh (env : Env C T) (f : Files) (d : Bool) (n : Nat) (cs : C × C) (sh : Option (T × T)) (h : fromSource env f = some cs) :
    applyConfig env ⟨f, d, some (n, some cs), none, none, sh⟩ =
      (⟨f, d, some (env.hardware f.inputs, some cs), some (env.inputsTree cs.1), some (env.displayTree cs.2),
        some (env.inputsTree cs.1, env.displayTree cs.2)⟩, true) := by
  by_cases hn : n = env.hardware f.inputs
  · simp [applyConfig, ParserSync.init, hn, initTrees, createTree, State.csts]
  · simp [applyConfig, ParserSync.init, hn, h, initTrees, createTree, State.csts]

theorem fresh_ok {env : Env C T} {f : Files} {d : Bool} {cs : C × C} (h : fromSource env f = some cs) :
    Loaded env (⟨f, d, some (env.hardware f.inputs, some cs), some (env.inputsTree cs.1), some (env.displayTree cs.2),
        some (env.inputsTree cs.1, env.displayTree cs.2)⟩ : ParserSync.State C T) ∧
    Synced env (⟨f, d, some (env.hardware f.inputs, some cs), some (env.inputsTree cs.1), some (env.displayTree cs.2),
        some (env.inputsTree cs.1, env.displayTree cs.2)⟩ : ParserSync.State C T) := by
  refine ⟨⟨⟨_, rfl⟩, ⟨_, rfl⟩, ⟨_, rfl⟩⟩, ?_⟩
  intro a b hab
  rw [h] at hab
  cases hab
  exact ⟨rfl, rfl, rfl, rfl⟩

/-- New code in a loaded parser. -/
theorem newCode {env : Env C T} {s : ParserSync.State C T} (h : Loaded env s) (f : Files) :
    (∀ cs, fromSource env f = some cs → ∃ n d, updateFromData env s f = (⟨f, d, some (n, some cs), none, none, s.shown⟩, true)) ∧
    (fromSource env f = none → (updateFromData env s f).2 = false ∧ (updateFromData env s f).1.files = f ∧ Loaded env (updateFromData env s f).1) := by
  obtain ⟨c, hc⟩ := h.py
  obtain ⟨a, ha⟩ := h.inputs
  obtain ⟨b, hb⟩ := h.display
  obtain ⟨f0, d, p, i, t, sh⟩ := s
  simp only at ha hb hc
  subst ha hb hc
  by_cases hn : env.hardware f0.inputs = env.hardware f.inputs
  · refine ⟨fun cs hcs => ⟨env.hardware f0.inputs, true, ?_⟩, fun hnone => ?_⟩
    · simp [updateFromData, ParserSync.init, hn, initTrees, createTree, hcs, reset]
    · have : updateFromData env ⟨f0, d, some (env.hardware f0.inputs, c), some a, some b, sh⟩ f =
          (⟨f, true, some (env.hardware f.inputs, c), some a, some b, sh⟩, false) := by
        simp [updateFromData, ParserSync.init, hn, initTrees, createTree, hnone]
      rw [this]
      exact ⟨rfl, rfl, ⟨_, rfl⟩, ⟨_, rfl⟩, ⟨_, rfl⟩⟩
  · refine ⟨fun cs hcs => ⟨env.hardware f.inputs, true, ?_⟩, fun hnone => ?_⟩
    · simp [updateFromData, ParserSync.init, hn, initTrees, createTree, hcs, reset]
    · have : updateFromData env ⟨f0, d, some (env.hardware f0.inputs, c), some a, some b, sh⟩ f =
          (⟨f, d, some (env.hardware f.inputs, none), some a, some b, sh⟩, false) := by
        simp [updateFromData, ParserSync.init, hn, hnone]
      rw [this]
      exact ⟨rfl, rfl, ⟨_, rfl⟩, ⟨_, rfl⟩, ⟨_, rfl⟩⟩

/-- An event which brings new code. -/
theorem step_new {env : Env C T} {s : ParserSync.State C T} (h : Loaded env s) (e : Ev T) (f : Files)
    (he : (∃ t x, e = .apply t x ∧ f = s.files.put t x) ∨ (∃ i d, e = .upload i d ∧ f = ⟨i.getD s.files.inputs, d.getD s.files.display⟩)) :
    (ParserSync.step env s e).1.files = f ∧ ((ParserSync.step env s e).2 = true ↔ (fromSource env f).isSome) ∧
    Loaded env (ParserSync.step env s e).1 ∧ Synced env (ParserSync.step env s e).1 := by
  obtain ⟨h1, h2⟩ := newCode h f
  cases hf : fromSource env f with
  | none =>
    obtain ⟨e1, e2, e3⟩ := h2 hf
    have hs : ParserSync.step env s e = ((updateFromData env s f).1, false) := by
      rcases he with ⟨t, x, rfl, rfl⟩ | ⟨i, d, rfl, rfl⟩
      · simp [ParserSync.step, changeCallback, updateFromSource, init_loaded h, e1]
      · simp [ParserSync.step, changeCallback, e1]
    rw [hs]
    refine ⟨e2, by simp, e3, ?_⟩
    intro a b hab
    rw [e2, hf] at hab
    cases hab
  | some cs =>
    obtain ⟨n, d, e1⟩ := h1 cs hf
    have hs : ParserSync.step env s e = applyConfig env ⟨f, d, some (n, some cs), none, none, s.shown⟩ := by
      rcases he with ⟨t, x, rfl, rfl⟩ | ⟨i, d', rfl, rfl⟩
      · simp [ParserSync.step, changeCallback, updateFromSource, init_loaded h, e1, reset]
      · simp [ParserSync.step, changeCallback, e1]
    rw [hs, applyConfig_fresh _ _ _ _ _ _ hf]
    obtain ⟨a1, a2⟩ := fresh_ok (d := d) hf
    exact ⟨rfl, by simp, a1, a2⟩

theorem applyConfig_loaded {env : Env C T} {s : ParserSync.State C T} (h : Loaded env s) :
    ∃ a b, s.inputsTree = some a ∧ s.displayTree = some b ∧ applyConfig env s = ({ s with shown := some (a, b) }, true) := by
  obtain ⟨a, ha⟩ := h.inputs
  obtain ⟨b, hb⟩ := h.display
  refine ⟨a, b, ha, hb, ?_⟩
  unfold applyConfig
  rw [init_loaded h]
  simp [ha, hb]

theorem step_restart {env : Env C T} {s : ParserSync.State C T} (h : Loaded env s) (hs : Synced env s) :
    (ParserSync.step env s .restart).1.files = s.files ∧ (ParserSync.step env s .restart).2 = true ∧
    Loaded env (ParserSync.step env s .restart).1 ∧ Synced env (ParserSync.step env s .restart).1 := by
  obtain ⟨a, b, ha, hb, e⟩ := applyConfig_loaded h
  have : ParserSync.step env s .restart = ({ s with shown := some (a, b) }, true) := by
    simp [ParserSync.step, changeCallback, e]
  rw [this]
  refine ⟨rfl, rfl, ⟨h.inputs, h.display, h.py⟩, ?_⟩
  intro c d hcd
  obtain ⟨h1, h2, h3, h4⟩ := hs c d hcd
  refine ⟨h1, h2, h3, ?_⟩
  rw [ha] at h2
  rw [hb] at h3
  cases h2
  cases h3
  rfl

/-- An edit when nothing has been parsed: an error. -/
theorem step_edit {env : Env C T} (hl : Lossless env) {s : ParserSync.State C T} (h : Loaded env s) (hs : Synced env s) (g : T × T → T × T) :
    Loaded env (ParserSync.step env s (.edit g)).1 ∧ Synced env (ParserSync.step env s (.edit g)).1 ∧
    ∀ cs, fromSource env s.files = some cs → (ParserSync.step env s (.edit g)).2 = true ∧
      some (ParserSync.step env s (.edit g)).1.files = edited env s.files g := by
  obtain ⟨c, hc⟩ := h.py
  obtain ⟨a, ha⟩ := h.inputs
  obtain ⟨b, hb⟩ := h.display
  have hi := init_loaded h
  obtain ⟨f0, d, p, i, t, sh⟩ := s
  simp only at ha hb hc
  subst ha hb hc
  cases c with
  | none =>
    have : ParserSync.step env ⟨f0, d, some (env.hardware f0.inputs, none), some a, some b, sh⟩ (.edit g) =
        (⟨f0, d, some (env.hardware f0.inputs, none), some (g (a, b)).1, some (g (a, b)).2, sh⟩, false) := by
      simp [ParserSync.step, changeCallback, hi, change, updateConfig, initTrees, createTree, State.csts]
    rw [this]
    refine ⟨⟨⟨_, rfl⟩, ⟨_, rfl⟩, ⟨_, rfl⟩⟩, ?_, ?_⟩
    · intro x y hxy
      have := (hs x y hxy).1
      simp [State.csts] at this
    · intro cs hcs
      have := (hs cs.1 cs.2 hcs).1
      simp [State.csts] at this
  | some c =>
    have hl' := hl (g (a, b)) c
    have hp : fromSource env ⟨env.print (env.generate (g (a, b)) c).1, env.print (env.generate (g (a, b)) c).2⟩ =
        some (env.generate (g (a, b)) c) := by
      simp [fromSource, hl'.1, hl'.2]
    have : ParserSync.step env ⟨f0, d, some (env.hardware f0.inputs, some c), some a, some b, sh⟩ (.edit g) =
        applyConfig env ⟨⟨env.print (env.generate (g (a, b)) c).1, env.print (env.generate (g (a, b)) c).2⟩, true,
          some (env.hardware f0.inputs, some (env.generate (g (a, b)) c)), none, none, sh⟩ := by
      simp [ParserSync.step, changeCallback, hi, change, updateConfig, initTrees, createTree, State.csts, reset]
    rw [this, applyConfig_fresh _ _ _ _ _ _ hp]
    obtain ⟨a1, a2⟩ := fresh_ok (d := true) hp
    refine ⟨a1, a2, ?_⟩
    intro cs hcs
    refine ⟨rfl, ?_⟩
    obtain ⟨h1, h2, h3, -⟩ := hs cs.1 cs.2 hcs
    simp only [State.csts, Option.some.injEq] at h1 h2 h3
    rw [edited_eq]
    simp only at hcs
    rw [hcs]
    subst h1 h2 h3
    rfl

theorem step_ok {env : Env C T} (hl : Lossless env) {s : ParserSync.State C T} (h : Loaded env s) (hs : Synced env s) (e : Ev T) :
    Loaded env (ParserSync.step env s e).1 ∧ Synced env (ParserSync.step env s e).1 := by
  cases e with
  | apply t x => obtain ⟨-, -, h1, h2⟩ := step_new h (.apply t x) _ (.inl ⟨t, x, rfl, rfl⟩); exact ⟨h1, h2⟩
  | upload i d => obtain ⟨-, -, h1, h2⟩ := step_new h (.upload i d) _ (.inr ⟨i, d, rfl, rfl⟩); exact ⟨h1, h2⟩
  | edit g => obtain ⟨h1, h2, -⟩ := step_edit hl h hs g; exact ⟨h1, h2⟩
  | restart => obtain ⟨-, -, h1, h2⟩ := step_restart h hs; exact ⟨h1, h2⟩

theorem run_ok {env : Env C T} (hl : Lossless env) (es : List (Ev T)) {s : ParserSync.State C T} (h : Loaded env s) (hs : Synced env s) :
    Loaded env (ParserSync.run env s es).1 ∧ Synced env (ParserSync.run env s es).1 := by
  induction es generalizing s with
  | nil => exact ⟨h, hs⟩
  | cons e es ih =>
    obtain ⟨h1, h2⟩ := step_ok hl h hs e
    exact ih h1 h2

theorem load_ok (env : Env C T) (f : Files) (hf : (view env f).isSome) :
    (ParserSync.load env f).2 = true ∧ (ParserSync.load env f).1.files = f ∧ Loaded env (ParserSync.load env f).1 ∧
      Synced env (ParserSync.load env f).1 := by
  rw [view_eq] at hf
  cases h : fromSource env f with
  | none => simp [h] at hf
  | some cs =>
    have : ParserSync.load env f = (⟨f, false, some (env.hardware f.inputs, some cs), some (env.inputsTree cs.1), some (env.displayTree cs.2),
        some (env.inputsTree cs.1, env.displayTree cs.2)⟩, true) := by
      simp [ParserSync.load, applyConfig, ParserSync.init, h, initTrees, createTree, State.csts]
    rw [this]
    obtain ⟨a1, a2⟩ := fresh_ok (d := false) h
    exact ⟨rfl, rfl, a1, a2⟩

end C164

variable {C T : Type}

/-- C164. After loading code which python accepts and every sequence of events, also after errors: whenever python accepts the code of the
configuration, the editor shows what this code means. -/
theorem C164_shown (env : Env C T) (hl : Lossless env) (f : Files) (hf : (view env f).isSome) (es : List (Ev T)) (v : T × T) :
    let s := (ParserSync.run env (ParserSync.load env f).1 es).1
    view env s.files = some v → s.shown = some v := by
  intro s hv
  obtain ⟨-, -, h1, h2⟩ := C164.load_ok env f hf
  obtain ⟨-, h4⟩ := C164.run_ok hl es h1 h2
  rw [C164.view_eq] at hv
  cases hc : fromSource env s.files with
  | none => simp [hc] at hv
  | some cs =>
    rw [hc] at hv
    cases hv
    exact (h4 cs.1 cs.2 hc).2.2.2

/-- After loading code which python accepts and every sequence of events, also after errors: new code from the user is put into the
configuration, and this is reported as an error exactly if python does not accept it. -/
theorem C164_new_code (env : Env C T) (hl : Lossless env) (f : Files) (hf : (view env f).isSome) (es : List (Ev T)) (e : Ev T) (he : NewCode e) :
    let s := (ParserSync.run env (ParserSync.load env f).1 es).1
    let r := ParserSync.step env s e
    some r.1.files = next env s.files e ∧ (r.2 = true ↔ (view env r.1.files).isSome) := by
  intro s r
  obtain ⟨-, -, h1, h2⟩ := C164.load_ok env f hf
  obtain ⟨h3, -⟩ := C164.run_ok hl es h1 h2
  cases e with
  | apply t x =>
    obtain ⟨e1, e2, -⟩ := C164.step_new h3 (.apply t x) _ (.inl ⟨t, x, rfl, rfl⟩)
    exact ⟨(congrArg some e1).trans (C164.next_apply ..).symm, by rw [e1, C164.view_eq]; simpa using e2⟩
  | upload i d =>
    obtain ⟨e1, e2, -⟩ := C164.step_new h3 (.upload i d) _ (.inr ⟨i, d, rfl, rfl⟩)
    exact ⟨congrArg some e1, by rw [e1, C164.view_eq]; simpa using e2⟩
  | edit g => exact he.elim
  | restart => exact he.elim

/-- A restart changes nothing of the code, and succeeds. -/
theorem C164_restart (env : Env C T) (hl : Lossless env) (f : Files) (hf : (view env f).isSome) (es : List (Ev T)) :
    let s := (ParserSync.run env (ParserSync.load env f).1 es).1
    (ParserSync.step env s .restart).1.files = s.files ∧ (ParserSync.step env s .restart).2 = true := by
  intro s
  obtain ⟨-, -, h1, h2⟩ := C164.load_ok env f hf
  obtain ⟨h3, h4⟩ := C164.run_ok hl es h1 h2
  obtain ⟨e1, e2, -⟩ := C164.step_restart h3 h4
  exact ⟨e1, e2⟩

/-- A configuration is loaded as it is exactly if python accepts it. -/
theorem C164_load (env : Env C T) (f : Files) :
    ((ParserSync.load env f).2 = true ↔ (view env f).isSome) ∧ (ParserSync.load env f).1.files = f := by
  by_cases hf : (view env f).isSome
  · obtain ⟨h1, h2, -⟩ := C164.load_ok env f hf
    exact ⟨by simp [h1, hf], h2⟩
  · have hn : fromSource env f = none := by
      rw [C164.view_eq] at hf
      cases h : fromSource env f with
      | none => rfl
      | some c => simp [h] at hf
    have : ParserSync.load env f = (⟨f, false, some (env.hardware f.inputs, none), none, none, none⟩, false) := by
      simp [ParserSync.load, applyConfig, ParserSync.init, hn]
    rw [this]
    exact ⟨by simp [hf], rfl⟩

/-- C165. After loading code which python accepts and every sequence of events, also after errors: an edit of what is shown changes the code of
the configuration just as the edit says. Missing: edits while the code in the configuration is not accepted by python, which replace this code
(`C165_lost_witness`). -/
theorem C165_edit_partial (env : Env C T) (hl : Lossless env) (f : Files) (hf : (view env f).isSome) (es : List (Ev T)) (g : T × T → T × T) :
    let s := (ParserSync.run env (ParserSync.load env f).1 es).1
    let r := ParserSync.step env s (.edit g)
    (view env s.files).isSome → r.2 = true ∧ some r.1.files = edited env s.files g := by
  intro s r hv
  obtain ⟨-, -, h1, h2⟩ := C164.load_ok env f hf
  obtain ⟨h3, h4⟩ := C164.run_ok hl es h1 h2
  obtain ⟨-, -, h5⟩ := C164.step_edit hl h3 h4 g
  rw [C164.view_eq] at hv
  cases hc : fromSource env s.files with
  | none => simp [hc] at hv
  | some cs => exact h5 cs hc

/-- The code after a sequence of events which all lead to code that python accepts is what the events say, one after the other. -/
theorem C165_result (env : Env C T) (hl : Lossless env) (f : Files) (hf : (view env f).isSome) (es : List (Ev T)) (f' : Files)
    (h : result env f es = some f') :
    let r := ParserSync.run env (ParserSync.load env f).1 es
    r.1.files = f' ∧ ∀ b ∈ r.2, b = true := by
  obtain ⟨-, h0, h1, h2⟩ := C164.load_ok env f hf
  suffices ∀ (s : ParserSync.State C T), C164.Loaded env s → C164.Synced env s → (view env s.files).isSome → result env s.files es = some f' →
      (ParserSync.run env s es).1.files = f' ∧ ∀ b ∈ (ParserSync.run env s es).2, b = true from
    this _ h1 h2 (by rw [h0]; exact hf) (by rw [h0]; exact h)
  clear h0 h1 h2 h hf f
  induction es with
  | nil =>
    intro s _ _ _ h
    simp only [result, Option.some.injEq] at h
    exact ⟨h, by simp [ParserSync.run]⟩
  | cons e es ih =>
    intro s hl1 hs hv h
    have key : some (ParserSync.step env s e).1.files = next env s.files e ∧
        ((view env (ParserSync.step env s e).1.files).isSome → (ParserSync.step env s e).2 = true) := by
      cases e with
      | apply t x =>
        obtain ⟨e1, e2, -⟩ := C164.step_new hl1 (.apply t x) _ (.inl ⟨t, x, rfl, rfl⟩)
        exact ⟨(congrArg some e1).trans (C164.next_apply ..).symm, by rw [e1, C164.view_eq]; simpa using e2.2⟩
      | upload i d =>
        obtain ⟨e1, e2, -⟩ := C164.step_new hl1 (.upload i d) _ (.inr ⟨i, d, rfl, rfl⟩)
        exact ⟨congrArg some e1, by rw [e1, C164.view_eq]; simpa using e2.2⟩
      | edit g =>
        obtain ⟨-, -, h5⟩ := C164.step_edit hl hl1 hs g
        rw [C164.view_eq] at hv
        cases hc : fromSource env s.files with
        | none => simp [hc] at hv
        | some cs => exact ⟨(h5 cs hc).2, fun _ => (h5 cs hc).1⟩
      | restart =>
        obtain ⟨e1, e2, -⟩ := C164.step_restart hl1 hs
        exact ⟨congrArg some e1, fun _ => e2⟩
    simp only [result] at h
    rw [← key.1] at h
    simp only at h
    split at h
    · next hg =>
      obtain ⟨a1, a2⟩ := C164.step_ok hl hl1 hs e
      obtain ⟨b1, b2⟩ := ih _ a1 a2 hg h
      refine ⟨b1, ?_⟩
      intro b hb
      simp only [ParserSync.run, List.mem_cons] at hb
      rcases hb with rfl | hb
      · exact key.2 hg
      · exact b2 b hb
    · cases h

namespace C164

/-- Code is accepted unless it begins with `?`; it is its own tree, and the trees are the new code. Hardware is told by the first character. -/
def env : Env String String where
  parse s := if s.toList.head? = some '?' then none else some s
  print s := s
  inputsTree s := s
  displayTree s := s
  generate t _ := ("i" ++ t.1, "d" ++ t.2)
  hardware s := if s.toList.head? = some 'n' then 1 else 0

theorem lossless : Lossless env := by
  intro t c
  refine ⟨?_, ?_⟩ <;> simp [env, String.toList_append]

def add (x : String) : Ev String := .edit fun t => (t.1 ++ x, t.2)

end C164

/-- The hypotheses hold: code is applied, edited, replaced by code for another hardware, by code which is not accepted, and repaired. -/
example : (view C164.env ⟨"a", "b"⟩).isSome := by decide

example :
    let r := ParserSync.run C164.env (ParserSync.load C164.env ⟨"a", "b"⟩).1
      [C164.add "1", .apply .inputs "nano", .apply .inputs "?", .restart, .apply .display "x", .apply .inputs "c", C164.add "2"]
    r.1.files = ⟨"ic2", "dx"⟩ ∧ r.1.shown = some ("ic2", "dx") ∧ r.2 = [true, true, false, true, false, true, true] := by
  decide +kernel

example : result C164.env ⟨"a", "b"⟩ [C164.add "1", .upload none (some "y"), C164.add "2", .restart] = some ⟨"iia12", "dy"⟩ := by
  decide +kernel

/-- Code which python does not accept is applied: an error is shown, and the configuration has the new code. Then an edit of the lists, which still
show the code before, replaces the new code without any message. -/
theorem C165_lost_witness :
    let s := (ParserSync.run C164.env (ParserSync.load C164.env ⟨"a", "b"⟩).1 [.apply .inputs "?long code"]).1
    let r := ParserSync.step C164.env s (C164.add "1")
    s.files = ⟨"?long code", "b"⟩ ∧ r.2 = true ∧ r.1.files = ⟨"ia1", "db"⟩ := by
  decide +kernel

end PySwitch.Props
