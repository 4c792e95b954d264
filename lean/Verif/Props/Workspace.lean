import Verif.Lemmas.Workspace
/-
C127: The editor does not discard changes without asking. C128: What is reported as saved is stored. C129: Presets.
-/
namespace PySwitch.Props
open PySwitch PySwitch.Workspace

/-! ### C127: nothing is discarded without asking -/

namespace C127

theorem unapplied_congr {s s' : State} (h : s'.editors = s.editors) (t : Tab) : s'.unapplied t = s.unapplied t := by
  unfold State.unapplied State.editor
  rw [h]

theorem unsaved_congr {s s' : State} (h : s'.config = s.config) : s'.unsaved = s.unsaved := by
  unfold State.unsaved
  rw [h]

theorem inFolder_congr {s s' : State} (h : s'.config = s.config) : s'.inFolder ↔ s.inFolder := by
  unfold State.inFolder
  rw [h]

theorem call_tab (env : Env) (s : State) (p : Place) (answer : Question → Bool) {t : Tab} {x : String}
    (h : s.unapplied t = some x) :
    (call env s p answer).1.unapplied t = some x ∨ .asked (.discard t) true ∈ (call env s p answer).2 := by
  by_cases ha : s.agreed answer
  · right
    rw [call_ok ha]
    exact List.mem_append_left _ ((confirm_asked s answer ((confirm_ok s answer).mpr ha)).1 t (by simp [h]))
  · left
    rw [call_no ha]
    exact h

theorem call_config (env : Env) (s : State) (p : Place) (answer : Question → Bool) {f : Files}
    (h : s.unsaved = some f) :
    (call env s p answer).1.unsaved = some f ∨ .asked .unsaved true ∈ (call env s p answer).2 := by
  by_cases ha : s.agreed answer
  · right
    rw [call_ok ha]
    exact List.mem_append_left _ ((confirm_asked s answer ((confirm_ok s answer).mpr ha)).2 (by simp [h]))
  · left
    rw [call_no ha]
    exact h

theorem initParser_editors (env : Env) (s : State) (f : Files) : (initParser env s f).1.editors = s.editors := by
  unfold initParser
  split <;> rfl

theorem initParser_config (env : Env) (s : State) (f : Files) : (initParser env s f).1.config = s.config := by
  unfold initParser
  split <;> rfl

theorem initParser_store (env : Env) (s : State) (f : Files) : (initParser env s f).1.store = s.store := by
  unfold initParser
  split <;> rfl

theorem initParser_marker (env : Env) (s : State) (f : Files) : (initParser env s f).1.marker = s.marker := by
  unfold initParser
  split <;> rfl

theorem initParser_parser (env : Env) (s : State) (f : Files) :
    (initParser env s f).1.parser = some (env.hardware f.inputs) := by
  unfold initParser
  split
  · assumption
  · rfl

theorem initParser_again {env : Env} {s : State} {f : Files} (h : s.parser = some (env.hardware f.inputs)) :
    initParser env s f = (s, true) := by
  unfold initParser
  rw [if_pos h]

theorem showConfig_config (env : Env) (s : State) : (showConfig env s).1.config = s.config := by
  unfold showConfig
  cases h : s.config with
  | none => simpa using h
  | some c =>
    simp only
    split <;> simp [initParser_config, h]

theorem showConfig_store (env : Env) (s : State) : (showConfig env s).1.store = s.store := by
  unfold showConfig
  cases h : s.config with
  | none => rfl
  | some c =>
    simp only
    split <;> simp [initParser_store]

theorem showConfig_marker (env : Env) (s : State) : (showConfig env s).1.marker = s.marker := by
  unfold showConfig
  cases h : s.config with
  | none => rfl
  | some c =>
    simp only
    split <;> simp [initParser_marker]

theorem updateFromData_editors (env : Env) (s : State) (c : Config) (f : Files) :
    (updateFromData env s c f).1.editors = s.editors := by
  unfold updateFromData
  simp only
  split
  · exact initParser_editors _ _ _
  · simp [setFiles, initParser_editors]

theorem updateFromData_store (env : Env) (s : State) (c : Config) (f : Files) :
    (updateFromData env s c f).1.store = s.store := by
  unfold updateFromData
  simp only
  split
  · exact initParser_store _ _ _
  · simp [setFiles, initParser_store]

theorem updateFromData_config (env : Env) (s : State) (c : Config) (f : Files) :
    ∃ d, (updateFromData env s c f).1.config = some { c with files := f, dirty := d } ∧ (c.dirty = true → d = true) ∧
      ((updateFromData env s c f).2 = true → d = true) := by
  unfold updateFromData
  simp only
  split
  · refine ⟨c.dirty, ?_, id, by simp⟩
    rw [initParser_config]
  · exact ⟨true, by simp [setFiles], by simp, by simp⟩

theorem updateFromData_parser (env : Env) (s : State) (c : Config) (f : Files) :
    (updateFromData env s c f).1.parser = some (env.hardware f.inputs) := by
  unfold updateFromData
  simp only
  split
  · exact initParser_parser _ _ _
  · simp [setFiles, initParser_parser]

/-- What applying the text of an editor does. -/
theorem applyTab_cases (env : Env) (s : State) (t : Tab) :
    ((applyTab env s t).1.editors = s.editors ∧ ((applyTab env s t).1.config = s.config ∨
        ∃ c e, s.config = some c ∧ s.editor t = some e ∧ ∃ d, (c.dirty = true → d = true) ∧
          (applyTab env s t).1.config = some { c with files := c.files.put t e.text, dirty := d })) ∨
    (∃ c e, s.config = some c ∧ s.editor t = some e ∧ (applyTab env s t).2 = [] ∧
      (applyTab env s t).1.config = some { c with files := c.files.put t e.text, dirty := true } ∧
      (applyTab env s t).1.editors = some (showFiles (c.files.put t e.text))) := by
  unfold applyTab
  cases hc : s.config with
  | none => left; simp [hc]
  | some c =>
    cases he : s.editor t with
    | none => left; simp [hc]
    | some e =>
      simp only
      by_cases h1 : (initParser env s c.files).2 = true
      · simp only [h1, Bool.not_true]
        obtain ⟨d, h2, h3, h4⟩ := updateFromData_config env (initParser env s c.files).1 c (c.files.put t e.text)
        have h5 := updateFromData_parser env (initParser env s c.files).1 c (c.files.put t e.text)
        have h6 := updateFromData_editors env (initParser env s c.files).1 c (c.files.put t e.text)
        generalize updateFromData env (initParser env s c.files).1 c (c.files.put t e.text) = r at *
        by_cases h7 : r.2 = true
        · right
          refine ⟨c, e, rfl, rfl, ?_⟩
          have hd := h4 h7
          subst hd
          simp only [h7, Bool.not_true]
          have : initParser env r.1 (c.files.put t e.text) = (r.1, true) := initParser_again h5
          simp [showConfig, h2, this]
        · left
          rw [if_neg (by simp)]
          rw [if_pos (by simpa using h7)]
          refine ⟨?_, .inr ⟨c, e, rfl, rfl, d, h3, h2⟩⟩
          rw [h6, initParser_editors]
      · left
        simp [h1, initParser_editors, initParser_config, hc]

end C127

/-- Opening a configuration from the lists goes on exactly if the user agrees to lose all that is not saved or not
applied. Otherwise nothing changes at all. -/
theorem C127_open (env : Env) (s : State) (p : Place) (answer : Question → Bool) :
    (s.agreed answer → (step env s (.open p answer)).1 = (step env s (.navigate p)).1) ∧
    (¬ s.agreed answer → (step env s (.open p answer)).1 = s) := by
  constructor
  · intro h; simp only [step, call_ok h]
  · intro h; simp only [step, call_no h]

/-- The user is asked only about what would get lost, and the answer is the one of the user. -/
theorem C127_questions (env : Env) (s : State) (p : Place) (answer : Question → Bool) (q : Question) (b : Bool)
    (h : .asked q b ∈ (step env s (.open p answer)).2) :
    b = answer q ∧ ((∃ t, q = .discard t ∧ s.unapplied t ≠ none) ∨ (q = .unsaved ∧ s.unsaved ≠ none)) := by
  have key : .asked q b ∈ (confirmIfDirty s answer).2 → b = answer q ∧
      ((∃ t, q = .discard t ∧ s.unapplied t ≠ none) ∨ (q = .unsaved ∧ s.unsaved ≠ none)) := by
    intro h
    obtain ⟨q', hq, hr⟩ := confirm_out s answer h
    cases hq
    exact ⟨rfl, hr⟩
  simp only [step] at h
  by_cases ha : s.agreed answer
  · rw [call_ok ha] at h
    simp only [List.mem_append] at h
    rcases h with h | h
    · exact key h
    · rcases goTo_out env s p h with h | ⟨f, h⟩ <;> cases h
  · rw [call_no ha] at h
    exact key h

/-- The text of a code editor which is not applied stays there with its mark whatever happens, until the user types
another text, applies it (then it is part of the configuration) or agrees to discard it. Missing: all these also discard
it, without a question (`C127_silent_witness`): applying the other editor, any other edit of the configuration, a change
of the settings, an upload, the back button, and opening, saving or changing the local folder while it is shown. -/
theorem C127_tab_partial (env : Env) (s : State) (e : Ev) (t : Tab) (x : String) (h : s.unapplied t = some x) :
    (step env s e).1.unapplied t = some x ∨ (∃ y, e = .type t y) ∨
      (e = .apply t ∧ ∃ f, (step env s e).1.files = some f ∧ f.text t = x) ∨
      .asked (.discard t) true ∈ (step env s e).2 ∨ Discards s t e := by
  have keep : ∀ s' : State, s'.editors = s.editors → s'.unapplied t = some x := by
    intro s' hs
    rw [C127.unapplied_congr hs t, h]
  have folder : ∀ (s' : State) (answer : Question → Bool), s'.editors = s.editors → ¬ s'.inFolder →
      (callFolder env s' answer).1.unapplied t = some x ∨ .asked (.discard t) true ∈ (callFolder env s' answer).2 := by
    intro s' answer hs hf
    rw [callFolder_out_of hf]
    exact C127.call_tab env s' _ answer (keep s' hs)
  cases e with
  | type t' y =>
    by_cases ht : t' = t
    · subst ht; exact .inr (.inl ⟨y, rfl⟩)
    · left
      unfold State.unapplied State.editor at h ⊢
      simp only [step]
      cases he : s.editors with
      | none => simp [he] at h
      | some ed =>
        rw [he] at h
        cases t' <;> cases t <;> simp_all
  | apply t' =>
    by_cases ht : t' = t
    · subst ht
      simp only [step]
      rcases C127.applyTab_cases env s t' with ⟨h1, _⟩ | ⟨c, e, hc, he, _, h2, _⟩
      · exact .inl (keep _ h1)
      · right; right; left
        refine ⟨trivial, c.files.put t' e.text, by simp [State.files, h2], ?_⟩
        have : e.text = x := by
          unfold State.unapplied at h
          rw [he] at h
          simp only at h
          split at h
          · simpa using h
          · simp at h
        rw [← this]
        cases t' <;> rfl
    · exact .inr (.inr (.inr (.inr (.other t' ht))))
  | edit f => exact .inr (.inr (.inr (.inr (.edit f))))
  | restart => exact .inr (.inr (.inr (.inr .restart)))
  | upload i d => exact .inr (.inr (.inr (.inr (.upload i d))))
  | navigate p => exact .inr (.inr (.inr (.inr (.navigate p))))
  | save w =>
    left
    apply keep
    simp only [step, saveCurrent]
    cases hc : s.config with
    | none => rfl
    | some c => simp only; split <;> rfl
  | saveDevice port confirm answer w =>
    left
    apply keep
    simp only [step, saveDevice]
    cases hc : s.config with
    | none => rfl
    | some c =>
      simp only
      split
      · rfl
      · exact saveAs_editors _ _ _ _
  | savePreset id answer w =>
    simp only [step, savePreset]
    cases hc : s.config with
    | none => exact .inl h
    | some c =>
      simp only
      split
      · exact .inl h
      · simp only [saveToPreset]
        split
        · rcases C127.call_tab env (saveAs s c (.preset id) w).1 (.preset id) answer
            (keep _ (saveAs_editors _ _ _ _)) with h1 | h1
          · exact .inl h1
          · exact .inr (.inr (.inr (.inl (List.mem_cons_of_mem _ (List.mem_cons_of_mem _ h1)))))
        · exact .inl (keep _ (saveAs_editors _ _ _ _))
  | saveNewPreset names answer w =>
    simp only [step, saveNewPreset]
    cases hc : s.config with
    | none => exact .inl h
    | some c =>
      simp only
      split
      · exact .inl h
      · rename_i id _
        simp only [saveToPreset]
        split
        · rcases C127.call_tab env (saveAs s c (.preset id) w).1 (.preset id) answer
            (keep _ (saveAs_editors _ _ _ _)) with h1 | h1
          · exact .inl h1
          · exact .inr (.inr (.inr (.inl (List.mem_cons_of_mem _ h1))))
        · exact .inl (keep _ (saveAs_editors _ _ _ _))
  | saveFolder dir answer w =>
    by_cases hf : s.inFolder
    · exact .inr (.inr (.inr (.inr (.saveFolder dir answer w hf))))
    · simp only [step, saveFolder]
      cases hc : s.config with
      | none => exact .inl h
      | some c =>
        simp only
        split
        · rename_i hk
          have hn : ¬ (saveAs (chooseFolder s dir) c .folder w).1.inFolder := by
            intro ⟨c', hc', hp⟩
            rcases saveAs_cases (chooseFolder s dir) c .folder w with
              ⟨_, _, he⟩ | ⟨he, _⟩
            · rw [he] at hc'
              simp only [resetDirty, chooseFolder, hc, Option.map_some, Option.some.injEq] at hc'
              subst hc'
              exact hf ⟨c, hc, hp⟩
            · rw [he] at hk; simp at hk
          rcases folder (saveAs (chooseFolder s dir) c .folder w).1 answer (saveAs_editors _ _ _ _) hn with h1 | h1
          · exact .inl h1
          · exact .inr (.inr (.inr (.inl (List.mem_cons_of_mem _ h1))))
        · exact .inl (keep _ (saveAs_editors _ _ _ _))
  | «open» p answer =>
    rcases C127.call_tab env s p answer h with h1 | h1
    · exact .inl h1
    · exact .inr (.inr (.inr (.inl h1)))
  | openFolder dir answer =>
    by_cases hf : s.inFolder
    · exact .inr (.inr (.inr (.inr (.openFolder dir answer hf))))
    · rcases folder (chooseFolder s dir) answer rfl hf with h1 | h1
      · exact .inl h1
      · exact .inr (.inr (.inr (.inl h1)))
  | folderChanged dir f answer =>
    by_cases hf : s.inFolder
    · exact .inr (.inr (.inr (.inr (.folderChanged dir f answer hf))))
    · simp only [step, folderChanged]
      split
      · rcases folder { writeFolder s dir f with observed := none } answer rfl hf with h1 | h1
        · exact .inl h1
        · exact .inr (.inr (.inr (.inl h1)))
      · exact .inl (keep _ rfl)
  | deletePreset id answer =>
    left
    simp only [step]
    split
    · exact keep _ rfl
    · exact h
  | renamePreset id new => exact .inl (keep _ rfl)

/-- Changes of a configuration which are not saved stay with their mark whatever happens (only further edits change the
files), until these files are saved somewhere, or the user agrees to lose them. Missing: the back button, opening another
folder while a folder is shown, and a change of the files in that folder by another program (`C127_drop_witness`). -/
theorem C127_config_partial (env : Env) (s : State) (e : Ev) (f : Files) (h : s.unsaved = some f) :
    (step env s e).1.unsaved = some f ∨ (Changes e ∧ (step env s e).1.unsaved ≠ none) ∨
      (∃ p, .saved p f ∈ (step env s e).2) ∨ .asked .unsaved true ∈ (step env s e).2 ∨ Drops s e := by
  obtain ⟨c, hc, hcd⟩ := (unsaved_ne_none (s := s)).mp (by simp [h])
  have hcf : c.files = f := by
    unfold State.unsaved at h
    rw [hc] at h
    simpa [hcd] using h
  have keep : ∀ s' : State, s'.config = s.config → s'.unsaved = some f := by
    intro s' hs
    rw [C127.unsaved_congr hs, h]
  have folder : ∀ (s' : State) (answer : Question → Bool), s'.config = s.config → ¬ s'.inFolder →
      (callFolder env s' answer).1.unsaved = some f ∨ .asked .unsaved true ∈ (callFolder env s' answer).2 := by
    intro s' answer hs hf
    rw [callFolder_out_of hf]
    exact C127.call_config env s' _ answer (keep s' hs)
  have asConfig : ∀ p w s0, s0.config = s.config → (saveAs s0 c p w).2 = false → (saveAs s0 c p w).1.config = s.config := by
    intro p w s0 h0 hk
    rcases saveAs_cases s0 c p w with ⟨hx, _⟩ | ⟨_, _, hx⟩
    · rw [hk] at hx; simp at hx
    · rw [hx, ← h0]
  cases e with
  | type t y => exact .inl (keep _ rfl)
  | apply t =>
    right; left
    refine ⟨.apply t, ?_⟩
    rw [unsaved_ne_none]
    simp only [step]
    rcases C127.applyTab_cases env s t with ⟨_, h2 | ⟨c', e, h3, _, d, h4, h5⟩⟩ | ⟨c', e, h3, _, _, h4, _⟩
    · exact ⟨c, by rw [h2, hc], hcd⟩
    · rw [hc] at h3; cases h3
      exact ⟨_, h5, h4 hcd⟩
    · exact ⟨_, h4, rfl⟩
  | edit g =>
    right; left
    refine ⟨.edit g, ?_⟩
    rw [unsaved_ne_none]
    simp only [step, editTree, hc]
    split
    · rw [C127.showConfig_config]
      exact ⟨_, rfl, rfl⟩
    · exact ⟨c, hc, hcd⟩
  | restart =>
    left
    exact keep _ (C127.showConfig_config env s)
  | upload i d =>
    right; left
    refine ⟨.upload i d, ?_⟩
    rw [unsaved_ne_none]
    simp only [step, upload, hc]
    obtain ⟨d', h2, h3, h4⟩ := C127.updateFromData_config env s c
      { inputs := i.getD c.files.inputs, display := d.getD c.files.display }
    split
    · exact ⟨_, h2, h3 hcd⟩
    · rw [C127.showConfig_config]
      exact ⟨_, h2, h3 hcd⟩
  | navigate p => exact .inr (.inr (.inr (.inr (.navigate p))))
  | save w =>
    simp only [step, saveCurrent, hc]
    split
    · right; right; left
      exact ⟨c.place, by simp [hcf]⟩
    · exact .inl (keep _ hc.symm)
  | saveDevice port confirm answer w =>
    simp only [step, saveDevice, hc]
    split
    · exact .inl h
    · cases hk : (saveAs s c (.device port) w).2 with
      | true =>
        right; right; left
        exact ⟨.device port, by simp [hcf]⟩
      | false => exact .inl (keep _ (asConfig _ _ s rfl hk))
  | savePreset id answer w =>
    simp only [step, savePreset, hc]
    split
    · exact .inl h
    · simp only [saveToPreset]
      cases hk : (saveAs s c (.preset id) w).2 with
      | true =>
        right; right; left
        exact ⟨.preset id, by simp [hcf]⟩
      | false => exact .inl (keep _ (asConfig _ _ s rfl hk))
  | saveNewPreset names answer w =>
    simp only [step, saveNewPreset, hc]
    split
    · exact .inl h
    · rename_i id _
      simp only [saveToPreset]
      cases hk : (saveAs s c (.preset id) w).2 with
      | true =>
        right; right; left
        exact ⟨.preset id, by simp [hcf]⟩
      | false => exact .inl (keep _ (asConfig _ _ s rfl hk))
  | saveFolder dir answer w =>
    simp only [step, saveFolder, hc]
    cases hk : (saveAs (chooseFolder s dir) c .folder w).2 with
    | true =>
      right; right; left
      exact ⟨.folder, by simp [hcf]⟩
    | false => exact .inl (keep _ (asConfig _ _ (chooseFolder s dir) rfl hk))
  | «open» p answer =>
    rcases C127.call_config env s p answer h with h1 | h1
    · exact .inl h1
    · exact .inr (.inr (.inr (.inl h1)))
  | openFolder dir answer =>
    by_cases hf : s.inFolder
    · exact .inr (.inr (.inr (.inr (.openFolder dir answer hf))))
    · rcases folder (chooseFolder s dir) answer rfl hf with h1 | h1
      · exact .inl h1
      · exact .inr (.inr (.inr (.inl h1)))
  | folderChanged dir g answer =>
    by_cases hf : s.inFolder
    · exact .inr (.inr (.inr (.inr (.folderChanged dir g answer hf))))
    · simp only [step, folderChanged]
      split
      · rcases folder { writeFolder s dir g with observed := none } answer rfl hf with h1 | h1
        · exact .inl h1
        · exact .inr (.inr (.inr (.inl h1)))
      · exact .inl (keep _ rfl)
  | deletePreset id answer =>
    left
    simp only [step]
    split
    · exact keep _ rfl
    · exact h
  | renamePreset id new => exact .inl (keep _ rfl)

namespace C127

/-- A small setting: two hardware types, texts which python does not accept, the same files for every path on the web. -/
def env : Env where
  parses := fun f => f.inputs != "bad" && f.inputs != "nano bad"
  hardware := fun x => if x = "nano" ∨ x = "nano bad" then 1 else 0
  web := fun _ => some ⟨"inputs", "display"⟩
  template := ⟨"template inputs", "template display"⟩

/-- A store with a preset, a controller and two folders. -/
def store : Store where
  presets := [("A", some ⟨"a", "b"⟩), ("B", some ⟨"c", "d"⟩)]
  devices := fun port => if port = "Captain" then some ⟨"e", "f"⟩ else none
  folders := fun dir => if dir < 2 then some ⟨"g", "h"⟩ else none

def yes : Question → Bool := fun _ => true
def no : Question → Bool := fun _ => false

/-- Text in an editor, which is neither there nor in the configuration after an event without any question. -/
def lost (s : State) (e : Ev) (x : String) : Bool :=
  let r := step env s e
  s.unapplied .inputs == some x && (r.1.editor .inputs).map (·.text) != some x &&
    r.1.files.map (·.inputs) != some x && r.2.all (fun o => match o with | .asked _ _ => false | _ => true)

def web : State := (run env (init store) [.navigate (.web "x"), .type .inputs "mine"]).1
def folder : State := (run env (init store) [.openFolder 0 yes, .type .inputs "mine"]).1

end C127

/-- All these discard text which the user has typed into an editor, without a question, in a state the user gets to by
opening a configuration and typing: applying the other editor, an edit in the user interface, a restart after a change of
the settings, an upload of the other file, the back button; with a local folder also another program's change of a file,
opening another folder, and saving to another folder (also if the user would say no to any question). -/
theorem C127_silent_witness :
    [Ev.apply .display, .edit ⟨"new", "display"⟩, .restart, .upload none (some "d2"), .navigate (.preset "A")].all
      (fun e => C127.lost C127.web e "mine") = true ∧
    [Ev.folderChanged 0 ⟨"g2", "h"⟩ C127.no, .openFolder 1 C127.no, .saveFolder 1 C127.no .both].all
      (fun e => C127.lost C127.folder e "mine") = true := by decide +kernel

namespace C127

/-- Unsaved changes of the configuration, which are gone after an event without any question. -/
def dropped (s : State) (e : Ev) (f : Files) : Bool :=
  let r := step env s e
  s.unsaved == some f && r.1.files != some f &&
    r.2.all (fun o => match o with | .asked _ _ => false | .saved _ _ => false | _ => true)

def webEdited : State := (run env (init store) [.navigate (.web "x"), .edit ⟨"mine", "display"⟩]).1
def folderEdited : State := (run env (init store) [.openFolder 0 yes, .edit ⟨"mine", "h"⟩]).1

end C127

/-- These discard edits of a configuration which are not saved, without a question: the back button; with a local folder
also a change of a file by another program (although a comment in the code says that this reloads the configuration only
if it has no unsaved changes), and opening another folder. -/
theorem C127_drop_witness :
    C127.dropped C127.webEdited (.navigate (.preset "A")) ⟨"mine", "display"⟩ = true ∧
    C127.dropped C127.folderEdited (.folderChanged 0 ⟨"g2", "h"⟩ C127.no) ⟨"mine", "h"⟩ = true ∧
    C127.dropped C127.folderEdited (.openFolder 1 C127.no) ⟨"mine", "h"⟩ = true := by decide +kernel

/- The states of the theorems are met: unapplied text and unsaved changes, with both answers. -/
example : C127.web.unapplied .inputs = some "mine" ∧ C127.webEdited.unsaved = some ⟨"mine", "display"⟩ ∧
    (step C127.env C127.web (.open (.preset "A") C127.no)).2 = [.asked (.discard .inputs) false] ∧
    (step C127.env C127.web (.open (.preset "A") C127.yes)).2 =
      [.asked (.discard .inputs) true, .loaded (.preset "A") ⟨"a", "b"⟩] ∧
    (step C127.env C127.webEdited (.open (.device "Captain") C127.yes)).2 =
      [.asked .unsaved true, .loaded (.device "Captain") ⟨"e", "f"⟩] := by decide +kernel

/-! ### C128: what is reported as saved is stored -/

namespace C128
open C127

theorem showConfig_out (env : Env) (s : State) {o : Out} (h : o ∈ (showConfig env s).2) : o = .error := by
  unfold showConfig at h
  cases hc : s.config with
  | none => simp [hc] at h
  | some c =>
    simp only [hc] at h
    split at h
    · simp at h
    · simpa using h

theorem applyTab_out (env : Env) (s : State) (t : Tab) {o : Out} (h : o ∈ (applyTab env s t).2) : o = .error := by
  unfold applyTab at h
  split at h
  · simp only at h
    split at h
    · simpa using h
    · split at h
      · simpa using h
      · exact showConfig_out _ _ h
  · simp at h

theorem upload_out (env : Env) (s : State) (i d : Option String) {o : Out} (h : o ∈ (upload env s i d).2) :
    o = .error := by
  unfold upload at h
  split at h
  · simp at h
  · simp only at h
    split at h
    · simpa using h
    · exact showConfig_out _ _ h

theorem editTree_out (env : Env) (s : State) (f : Files) {o : Out} (h : o ∈ (editTree env s f).2) : o = .error := by
  unfold editTree at h
  split at h
  · simp at h
  · split at h
    · exact showConfig_out _ _ h
    · simp at h

theorem saveAs_store (s : State) (c : Config) (p : Place) (w : Written) :
    (saveAs s c p w).1.store = (doSave s.store p c.files w).1 := by
  rcases saveAs_cases s c p w with ⟨_, _, h⟩ | ⟨_, _, h⟩ <;> rw [h] <;> rfl

theorem saveAs_ok {s : State} {c : Config} {p : Place} {w : Written} (h : (saveAs s c p w).2 = true) :
    (doSave s.store p c.files w).2 = true := by
  rcases saveAs_cases s c p w with ⟨_, h2, _⟩ | ⟨h1, _, _⟩
  · exact h2
  · rw [h1] at h; simp at h

theorem saveToPreset_saved {env : Env} {s : State} {c : Config} {id : String} {answer : Question → Bool} {w : Written}
    {p : Place} {f : Files} (h : .saved p f ∈ (saveToPreset env s c id answer w).2) :
    c.files = f ∧ p = .preset id ∧ stored (saveToPreset env s c id answer w).1.store p = some f := by
  simp only [saveToPreset] at h ⊢
  cases hk : (saveAs s c (.preset id) w).2 with
  | false => simp [hk] at h
  | true =>
    simp only [hk, if_true, List.mem_cons] at h ⊢
    rcases h with h | h
    · cases h
      refine ⟨rfl, rfl, ?_⟩
      rw [(call_store env _ _ answer).stored, saveAs_store]
      exact (doSave_ok (saveAs_ok hk)).1
    · rcases call_out env _ _ answer h with ⟨q, h⟩ | h | ⟨g, h⟩ <;> cases h

end C128

/-- Whenever the page says that the configuration has been saved, the files of the current configuration are completely
stored at that place. This is never a place on the web. -/
theorem C128_saved (env : Env) (s : State) (e : Ev) (p : Place) (f : Files) (h : .saved p f ∈ (step env s e).2) :
    s.files = some f ∧ stored (step env s e).1.store p = some f := by
  cases e with
  | type t x => simp [step] at h
  | apply t => exact absurd (C128.applyTab_out env s t h) (by simp)
  | edit g => exact absurd (C128.editTree_out env s g h) (by simp)
  | restart => exact absurd (C128.showConfig_out env s h) (by simp)
  | upload i d => exact absurd (C128.upload_out env s i d h) (by simp)
  | navigate q => rcases goTo_out env s q h with h | ⟨g, h⟩ <;> cases h
  | «open» q answer => rcases call_out env s q answer h with ⟨q, h⟩ | h | ⟨g, h⟩ <;> cases h
  | openFolder dir answer =>
    rcases callFolder_out env (chooseFolder s dir) answer h with ⟨q, h⟩ | h | ⟨g, h⟩ <;> cases h
  | folderChanged dir g answer =>
    simp only [step, folderChanged] at h
    split at h
    · rcases callFolder_out env _ answer h with ⟨q, h⟩ | h | ⟨g, h⟩ <;> cases h
    · simp at h
  | deletePreset id answer =>
    simp only [step] at h
    split at h <;> simp at h
  | renamePreset id new => simp [step] at h
  | save w =>
    simp only [step, saveCurrent] at h ⊢
    cases hc : s.config with
    | none => simp [hc] at h
    | some c =>
      simp only [hc] at h ⊢
      cases hk : (doSave s.store c.place c.files w).2 with
      | false => simp [hk] at h
      | true =>
        simp only [hk, if_true, List.mem_singleton] at h ⊢
        cases h
        exact ⟨by simp [State.files, hc], (doSave_ok hk).1⟩
  | saveDevice port confirm answer w =>
    simp only [step, saveDevice] at h ⊢
    cases hc : s.config with
    | none => simp [hc] at h
    | some c =>
      simp only [hc] at h ⊢
      by_cases hn : (confirm && !answer (.saveTo port)) = true
      · rw [if_pos hn] at h
        cases confirm <;> simp at h
      · rw [if_neg hn] at h ⊢
        cases hk : (saveAs s c (.device port) w).2 with
        | false => cases confirm <;> simp [hk] at h
        | true =>
          have : p = .device port ∧ f = c.files := by cases confirm <;> simpa [hk] using h
          obtain ⟨rfl, rfl⟩ := this
          refine ⟨by simp [State.files, hc], ?_⟩
          rw [C128.saveAs_store]
          exact (doSave_ok (C128.saveAs_ok hk)).1
  | savePreset id answer w =>
    simp only [step, savePreset] at h ⊢
    cases hc : s.config with
    | none => simp [hc] at h
    | some c =>
      simp only [hc] at h ⊢
      split at h
      · simp at h
      · rename_i hn
        rw [if_neg hn]
        simp only [List.mem_cons] at h
        rcases h with h | h
        · cases h
        · obtain ⟨h1, h2, h3⟩ := C128.saveToPreset_saved h
          exact ⟨by simp [State.files, hc, h1], h3⟩
  | saveNewPreset names answer w =>
    simp only [step, saveNewPreset] at h ⊢
    cases hc : s.config with
    | none => simp [hc] at h
    | some c =>
      simp only [hc] at h ⊢
      cases hn : newName s.store.presets names with
      | none => simp [hn] at h
      | some id =>
        simp only [hn] at h ⊢
        obtain ⟨h1, h2, h3⟩ := C128.saveToPreset_saved h
        exact ⟨by simp [State.files, hc, h1], h3⟩
  | saveFolder dir answer w =>
    simp only [step, saveFolder] at h ⊢
    cases hc : s.config with
    | none => simp [hc] at h
    | some c =>
      simp only [hc] at h ⊢
      cases hk : (saveAs (chooseFolder s dir) c .folder w).2 with
      | false => simp [hk] at h
      | true =>
        simp only [hk, if_true, List.mem_cons] at h ⊢
        rcases h with h | h
        · cases h
          refine ⟨by simp [State.files, hc], ?_⟩
          rw [(callFolder_store env _ answer).stored, C128.saveAs_store]
          exact (doSave_ok (C128.saveAs_ok hk)).1
        · rcases callFolder_out env _ answer h with ⟨q, h⟩ | h | ⟨g, h⟩ <;> cases h

/-- Opening a place shows exactly the files stored there (for a folder: if none of them is empty), if python accepts them,
and without marks. -/
theorem C128_reopen (env : Env) (s : State) (p : Place) (f : Files) (h : stored s.store p = some f)
    (hp : env.parses f = true) (hf : p = .folder → f.inputs ≠ "" ∧ f.display ≠ "") (hl : s.location ≠ some p) :
    (step env s (.navigate p)).1.config = some { place := p, files := f, dirty := false } ∧
    (∀ t, (step env s (.navigate p)).1.editor t = some { text := f.text t, dirty := false }) ∧
    (step env s (.navigate p)).1.marker = false := by
  have hr : read env s.store p = some f := by
    cases p with
    | web path => simp [stored] at h
    | preset id => exact h
    | device port => exact h
    | folder =>
      simp only [stored] at h
      obtain ⟨h1, h2⟩ := hf rfl
      simp [Workspace.read, h, orTemplate, h1, h2]
  simp only [step, goTo, if_neg hl]
  rcases load_cases env { s with location := some p } p with ⟨h1, _⟩ | ⟨g, h1, _, h2, _, h3, h4, _⟩
  · exfalso
    unfold load at h1
    simp only [hr] at h1
    cases p <;> simp [hp] at h1
  · simp only [hr, Option.some.injEq] at h1
    subst h1
    refine ⟨h2, ?_, h4⟩
    intro t
    simp only [State.editor, h3]
    cases t <;> rfl

/-- If saving is not reported as done, the current configuration and the editors are as before, with all their marks. -/
theorem C128_failed (env : Env) (s : State) (e : Ev)
    (he : (∃ w, e = .save w) ∨ (∃ port c a w, e = .saveDevice port c a w) ∨ (∃ id a w, e = .savePreset id a w) ∨
      (∃ names a w, e = .saveNewPreset names a w) ∨ (∃ dir a w, e = .saveFolder dir a w))
    (h : ∀ p f, .saved p f ∉ (step env s e).2) :
    (step env s e).1.config = s.config ∧ (step env s e).1.editors = s.editors := by
  have as : ∀ s0 c p w, (saveAs s0 c p w).2 = false →
      (saveAs s0 c p w).1.config = s0.config ∧ (saveAs s0 c p w).1.editors = s0.editors := by
    intro s0 c p w hk
    rcases saveAs_cases s0 c p w with ⟨h1, _, _⟩ | ⟨_, _, h1⟩
    · rw [hk] at h1; simp at h1
    · rw [h1]; exact ⟨rfl, rfl⟩
  rcases he with ⟨w, rfl⟩ | ⟨port, confirm, answer, w, rfl⟩ | ⟨id, answer, w, rfl⟩ | ⟨names, answer, w, rfl⟩ |
    ⟨dir, answer, w, rfl⟩
  · simp only [step, saveCurrent] at h ⊢
    cases hc : s.config with
    | none => simp [hc]
    | some c =>
      simp only [hc] at h ⊢
      cases hk : (doSave s.store c.place c.files w).2 with
      | false => simp
      | true => simp [hk] at h
  · simp only [step, saveDevice] at h ⊢
    cases hc : s.config with
    | none => simp [hc]
    | some c =>
      simp only [hc] at h ⊢
      split
      · exact ⟨hc, rfl⟩
      · rename_i hn
        rw [if_neg hn] at h
        cases hk : (saveAs s c (.device port) w).2 with
        | false => have := as _ _ _ _ hk; rw [hc] at this; exact this
        | true => exact absurd (h (.device port) c.files) (by simp [hk])
  · simp only [step, savePreset] at h ⊢
    cases hc : s.config with
    | none => simp [hc]
    | some c =>
      simp only [hc] at h ⊢
      split
      · exact ⟨hc, rfl⟩
      · rename_i hn
        rw [if_neg hn] at h
        simp only [saveToPreset] at h ⊢
        cases hk : (saveAs s c (.preset id) w).2 with
        | false => have := as _ _ _ _ hk; rw [hc] at this; exact this
        | true => exact absurd (h (.preset id) c.files) (by simp [hk])
  · simp only [step, saveNewPreset] at h ⊢
    cases hc : s.config with
    | none => simp [hc]
    | some c =>
      simp only [hc] at h ⊢
      cases hn : newName s.store.presets names with
      | none => exact ⟨hc, rfl⟩
      | some id =>
        simp only [hn, saveToPreset] at h ⊢
        cases hk : (saveAs s c (.preset id) w).2 with
        | false => have := as _ _ _ _ hk; rw [hc] at this; exact this
        | true => exact absurd (h (.preset id) c.files) (by simp [hk])
  · simp only [step, saveFolder] at h ⊢
    cases hc : s.config with
    | none => simp [hc]
    | some c =>
      simp only [hc] at h ⊢
      cases hk : (saveAs (chooseFolder s dir) c .folder w).2 with
      | false =>
        have := as _ _ _ _ hk
        exact ⟨this.1.trans hc, this.2⟩
      | true => exact absurd (h .folder c.files) (by simp [hk])

/-- A configuration from the web cannot be saved at its place: the attempt changes nothing and gives an error (on which the
page offers the other places). -/
theorem C128_web (env : Env) (s : State) (c : Config) (path : String) (w : Written) (hc : s.config = some c)
    (hp : c.place = .web path) :
    (step env s (.save w)).1 = s ∧ (step env s (.save w)).2 = [.error] := by
  simp [step, saveCurrent, hc, hp, doSave]
  cases s
  simp_all

namespace C128
open C127

/-- What an event can change in the store, for the presets, the controllers and the folders in turn. -/
theorem frame (env : Env) (s : State) (e : Ev) :
    (∀ id, ¬ WritesPreset s id e →
      getPreset (step env s e).1.store.presets id = getPreset s.store.presets id) ∧
    (∀ port, ¬ WritesDevice s port e → (step env s e).1.store.devices port = s.store.devices port) ∧
    (∀ dir, ¬ WritesFolder s dir e → (step env s e).1.store.folders dir = s.store.folders dir) := by
  have same : ∀ a b : Store, SameStore a b → (∀ id, getPreset a.presets id = getPreset b.presets id) ∧
      (∀ port, a.devices port = b.devices port) ∧ (∀ dir, a.folders dir = b.folders dir) := by
    intro a b ⟨h1, h2, h3, h4⟩
    rw [h1, h2, h3]
    exact ⟨fun _ => rfl, fun _ => rfl, fun _ => rfl⟩
  have easy : ∀ s' : State, SameStore s'.store s.store →
      (∀ id, ¬ WritesPreset s id e → getPreset s'.store.presets id = getPreset s.store.presets id) ∧
      (∀ port, ¬ WritesDevice s port e → s'.store.devices port = s.store.devices port) ∧
      (∀ dir, ¬ WritesFolder s dir e → s'.store.folders dir = s.store.folders dir) := by
    intro s' hs
    obtain ⟨h1, h2, h3⟩ := same _ _ hs
    exact ⟨fun id _ => h1 id, fun port _ => h2 port, fun dir _ => h3 dir⟩
  have toPreset : ∀ c id answer w, WritesPreset s id e →
      (∀ id', ¬ WritesPreset s id' e →
        getPreset (saveToPreset env s c id answer w).1.store.presets id' = getPreset s.store.presets id') ∧
      (∀ port, ¬ WritesDevice s port e → (saveToPreset env s c id answer w).1.store.devices port = s.store.devices port) ∧
      (∀ dir, ¬ WritesFolder s dir e → (saveToPreset env s c id answer w).1.store.folders dir = s.store.folders dir) := by
    intro c id answer w hw
    have hst : SameStore (saveToPreset env s c id answer w).1.store (doSave s.store (.preset id) c.files w).1 := by
      simp only [saveToPreset]
      split
      · rw [← saveAs_store]; exact call_store env _ _ answer
      · rw [← saveAs_store]; exact .refl _
    obtain ⟨h1, h2, h3⟩ := same _ _ hst
    obtain ⟨k1, k2, k3⟩ := doSave_frame s.store (.preset id) c.files w
    refine ⟨fun id' hn => ?_, fun port _ => ?_, fun dir _ => ?_⟩
    · rw [h1]
      apply k1
      intro he
      cases he
      exact hn hw
    · rw [h2]; exact k2 port (by simp)
    · rw [h3]; exact k3 dir (.inl (by simp))
  cases e with
  | type t x => exact easy _ (.refl _)
  | apply t =>
    apply easy
    have : (applyTab env s t).1.store = s.store := by
      unfold applyTab
      split
      · simp only
        split
        · exact initParser_store _ _ _
        · split
          · simp [updateFromData_store, initParser_store]
          · simp [showConfig_store, updateFromData_store, initParser_store]
      · rfl
    simp only [step, this]
    exact .refl _
  | edit f =>
    apply easy
    have : (editTree env s f).1.store = s.store := by
      unfold editTree
      split
      · rfl
      · split
        · simp [showConfig_store, setFiles]
        · rfl
    simp only [step, this]
    exact .refl _
  | restart =>
    apply easy
    simp only [step, showConfig_store]
    exact .refl _
  | upload i d =>
    apply easy
    have : (upload env s i d).1.store = s.store := by
      unfold upload
      split
      · rfl
      · simp only
        split
        · exact updateFromData_store _ _ _ _
        · simp [showConfig_store, updateFromData_store]
    simp only [step, this]
    exact .refl _
  | save w =>
    simp only [step, saveCurrent]
    cases hc : s.config with
    | none => exact easy _ (.refl _)
    | some c =>
      simp only
      have hst : ∀ b : Bool, (if b = true then
          (resetDirty { s with store := (doSave s.store c.place c.files w).1, config := some c, observed :=
            if c.place = .folder then (if b = true then (doSave s.store c.place c.files w).1.handle else none) else s.observed },
            [Out.saved c.place c.files])
          else ({ s with store := (doSave s.store c.place c.files w).1, config := some c, observed :=
            if c.place = .folder then (if b = true then (doSave s.store c.place c.files w).1.handle else none) else s.observed },
            [Out.error])).1.store = (doSave s.store c.place c.files w).1 := by
        intro b; cases b <;> rfl
      rw [hst]
      obtain ⟨k1, k2, k3⟩ := doSave_frame s.store c.place c.files w
      refine ⟨fun id hn => k1 id fun hp => hn (.save w c hc hp), fun port hn => k2 port fun hp => hn (.save w c hc hp),
        fun dir hn => k3 dir ?_⟩
      by_cases hp : c.place = .folder
      · right
        intro hd
        exact hn (.save w ⟨c, hc, hp⟩ hd)
      · exact .inl hp
  | saveDevice port confirm answer w =>
    simp only [step, saveDevice]
    cases hc : s.config with
    | none => exact easy _ (.refl _)
    | some c =>
      simp only
      split
      · exact easy _ (.refl _)
      · rename_i hn
        have hans : confirm = true → answer (.saveTo port) = true := by
          intro h
          simpa [h] using hn
        simp only [saveAs_store]
        obtain ⟨k1, k2, k3⟩ := doSave_frame s.store (.device port) c.files w
        refine ⟨fun id _ => k1 id (by simp), fun q hn => k2 q ?_, fun dir _ => k3 dir (.inl (by simp))⟩
        intro he
        cases he
        exact hn (.saveDevice confirm answer w hans)
  | savePreset id answer w =>
    simp only [step, savePreset]
    cases hc : s.config with
    | none => exact easy _ (.refl _)
    | some c =>
      simp only
      split
      · exact easy _ (.refl _)
      · rename_i hn
        exact toPreset c id answer w (.savePreset answer w (by simpa using hn))
  | saveNewPreset names answer w =>
    simp only [step, saveNewPreset]
    cases hc : s.config with
    | none => exact easy _ (.refl _)
    | some c =>
      simp only
      split
      · exact easy _ (.refl _)
      · rename_i id hn
        obtain ⟨h1, h2, _⟩ := newName_some hn
        exact toPreset c id answer w (.saveNew names answer w h1 h2)
  | saveFolder dir answer w =>
    simp only [step, saveFolder]
    cases hc : s.config with
    | none => exact easy _ (.refl _)
    | some c =>
      simp only
      have hst : ∀ r : State × Bool, SameStore
          (if r.2 = true then ((callFolder env r.1 answer).1, Out.saved .folder c.files :: (callFolder env r.1 answer).2)
            else (r.1, [Out.error])).1.store r.1.store := by
        intro r
        split
        · exact callFolder_store env _ _
        · exact .refl _
      obtain ⟨h1, h2, h3⟩ := same _ _ (hst (saveAs (chooseFolder s dir) c .folder w))
      obtain ⟨k1, k2, k3⟩ := doSave_frame (chooseFolder s dir).store .folder c.files w
      refine ⟨fun id _ => ?_, fun port _ => ?_, fun d hn => ?_⟩
      · rw [h1, saveAs_store]; exact k1 id (by simp)
      · rw [h2, saveAs_store]; exact k2 port (by simp)
      · rw [h3, saveAs_store]
        refine k3 d (.inr ?_)
        intro hd
        have : dir = d := by simpa [chooseFolder] using hd
        subst this
        exact hn (.saveFolder answer w)
  | «open» p answer => exact easy _ (call_store env s p answer)
  | openFolder dir answer =>
    obtain ⟨h1, h2, h3⟩ := same _ _ (callFolder_store env (chooseFolder s dir) answer)
    exact ⟨fun id _ => h1 id, fun port _ => h2 port, fun d _ => h3 d⟩
  | navigate p => exact easy _ (goTo_store env s p)
  | folderChanged dir f answer =>
    have hw : ∀ d, ¬ WritesFolder s d (.folderChanged dir f answer) →
        (writeFolder s dir f).store.folders d = s.store.folders d := by
      intro d hn
      have : d ≠ dir := fun h => hn (h ▸ .folderChanged f answer)
      simp [writeFolder, this]
    simp only [step, folderChanged]
    split
    · obtain ⟨h1, h2, h3⟩ := same _ _ (callFolder_store env { writeFolder s dir f with observed := none } answer)
      exact ⟨fun id _ => h1 id, fun port _ => h2 port, fun d hn => (h3 d).trans (hw d hn)⟩
    · exact ⟨fun id _ => rfl, fun port _ => rfl, hw⟩
  | deletePreset id answer =>
    simp only [step]
    split
    · rename_i ha
      refine ⟨fun id' hn => ?_, fun _ _ => rfl, fun _ _ => rfl⟩
      have : id ≠ id' := fun h => hn (h ▸ .delete answer ha)
      simp [getPreset_delete, this]
    · exact easy _ (.refl _)
  | renamePreset id new =>
    refine ⟨fun id' hn => ?_, fun _ _ => rfl, fun _ _ => rfl⟩
    simp only [step, renamePreset]
    split
    · rfl
    · have h1 : id ≠ id' := fun h => hn (h ▸ .renameFrom new)
      have h2 : new ≠ id' := fun h => hn (h ▸ .renameTo id)
      simp [getPreset_set, getPreset_delete, h1, h2]

end C128

/-- Nothing but these changes the files of a controller: saving the configuration which has been loaded from it, and saving
to this controller after the user agreed (or for the last used one). -/
theorem C128_device (env : Env) (s : State) (e : Ev) (port : String) (h : ¬ WritesDevice s port e) :
    (step env s e).1.store.devices port = s.store.devices port := (C128.frame env s e).2.1 port h

/-- Nothing but these changes the files of a folder: saving while the local folder is shown and this folder is the one
chosen last, saving to this folder, and other programs. -/
theorem C128_folder (env : Env) (s : State) (e : Ev) (dir : Nat) (h : ¬ WritesFolder s dir e) :
    (step env s e).1.store.folders dir = s.store.folders dir := (C128.frame env s e).2.2 dir h

namespace C128
open C127

/-- All configurations are for the same hardware. -/
def OneDevice (env : Env) : Prop := ∀ x y, env.hardware x = env.hardware y

/-- The state after a history with the given messages. -/
def Inv (env : Env) (s : State) (log : List Out) : Prop :=
  ∀ c, s.config = some c → (c.dirty = true → s.marker = true) ∧
    (OneDevice env → s.parser = some (env.hardware "") ∧
      (c.dirty = false → ∃ p, .loaded p c.files ∈ log ∨ .saved p c.files ∈ log))

theorem Inv.mono {env : Env} {s : State} {log log' : List Out} (h : Inv env s log) (hl : ∀ o ∈ log, o ∈ log') :
    Inv env s log' := by
  intro c hc
  obtain ⟨h1, h2⟩ := h c hc
  refine ⟨h1, fun hd => ⟨(h2 hd).1, fun hx => ?_⟩⟩
  obtain ⟨p, hp⟩ := (h2 hd).2 hx
  exact ⟨p, hp.imp (hl _) (hl _)⟩

theorem Inv.append {env : Env} {s : State} {log : List Out} (h : Inv env s log) (out : List Out) :
    Inv env s (log ++ out) := h.mono fun _ ho => List.mem_append_left _ ho

theorem Inv.congr {env : Env} {s s' : State} {log : List Out} (h : Inv env s log) (h1 : s'.config = s.config)
    (h2 : s'.marker = s.marker) (h3 : s'.parser = s.parser) : Inv env s' log := by
  intro c hc
  rw [h1] at hc
  rw [h2, h3]
  exact h c hc

theorem load_inv (env : Env) (s : State) (p : Place) (log : List Out) :
    Inv env (load env s p).1 (log ++ (load env s p).2) := by
  intro c hc
  rcases load_cases env s p with ⟨h, _⟩ | ⟨f, _, _, h, ho, _, _, hp, _⟩
  · rw [h] at hc; cases hc
  · rw [h] at hc
    cases hc
    refine ⟨by simp, fun hd => ⟨?_, fun _ => ⟨p, .inl ?_⟩⟩⟩
    · rw [hp, hd f.inputs ""]
    · rw [ho]; simp

theorem goTo_inv {env : Env} {s : State} {log : List Out} (h : Inv env s log) (p : Place) :
    Inv env (goTo env s p).1 (log ++ (goTo env s p).2) := by
  rcases goTo_cases env s p with e | e <;> rw [e]
  · exact h.append _
  · exact load_inv env _ p log

theorem call_inv {env : Env} {s : State} {log : List Out} (h : Inv env s log) (p : Place) (answer : Question → Bool) :
    Inv env (call env s p answer).1 (log ++ (call env s p answer).2) := by
  by_cases ha : s.agreed answer
  · rw [call_ok ha]
    refine (goTo_inv h p).mono ?_
    intro o ho
    simp only [List.mem_append] at ho ⊢
    rcases ho with ho | ho
    · exact .inl ho
    · exact .inr (.inr ho)
  · rw [call_no ha]
    exact h.append _

theorem callFolder_inv {env : Env} {s : State} {log : List Out} (h : Inv env s log) (answer : Question → Bool) :
    Inv env (callFolder env s answer).1 (log ++ (callFolder env s answer).2) := by
  by_cases hf : s.inFolder
  · rw [callFolder_in hf]; exact load_inv env s _ log
  · rw [callFolder_out_of hf]; exact call_inv h _ _

theorem initParser_inv {env : Env} {s : State} {log : List Out} (h : Inv env s log) (f : Files) :
    Inv env (initParser env s f).1 log := by
  intro c hc
  rw [initParser_config] at hc
  obtain ⟨h1, h2⟩ := h c hc
  rw [initParser_marker, initParser_parser]
  exact ⟨h1, fun hd => ⟨by rw [hd f.inputs ""], (h2 hd).2⟩⟩

theorem showConfig_inv {env : Env} {s : State} {log : List Out} (h : Inv env s log) :
    Inv env (showConfig env s).1 log := by
  unfold showConfig
  cases hc : s.config with
  | none => exact h
  | some c =>
    simp only
    split
    · exact (initParser_inv h c.files).congr rfl rfl rfl
    · exact initParser_inv h c.files

theorem setFiles_inv {env : Env} {s : State} {log : List Out} {c : Config}
    (h : OneDevice env → s.parser = some (env.hardware "")) (f : Files) : Inv env (setFiles s c f) log := by
  intro c' hc'
  simp only [setFiles, Option.some.injEq] at hc'
  subst hc'
  exact ⟨fun _ => rfl, fun hd => ⟨h hd, by simp⟩⟩

theorem updateFromData_inv {env : Env} {s : State} {log : List Out} {c : Config} (h : Inv env s log)
    (hc : s.config = some c) (f : Files) : Inv env (updateFromData env s c f).1 log := by
  obtain ⟨h1, h2⟩ := h c hc
  unfold updateFromData
  simp only
  by_cases hk : (initParser env { s with config := some { c with files := f } } f).2 = true
  · simp only [hk, Bool.not_true]
    exact setFiles_inv (fun hd => by rw [initParser_parser, hd f.inputs ""]) f
  · simp only [hk, Bool.not_false, if_true]
    intro c' hc'
    rw [initParser_config] at hc'
    rw [initParser_marker, initParser_parser]
    simp only [Option.some.injEq] at hc'
    subst hc'
    refine ⟨h1, fun hd => ?_⟩
    exfalso
    apply hk
    unfold initParser
    rw [if_pos]
    simp only
    rw [(h2 hd).1, hd f.inputs ""]

theorem resetDirty_inv {env : Env} {s : State} {log : List Out} (h : Inv env s log)
    (hs : ∀ c, s.config = some c → ∃ p, .saved p c.files ∈ log) : Inv env (resetDirty s) log := by
  intro c' hc'
  simp only [resetDirty] at hc' ⊢
  cases hc : s.config with
  | none => simp [hc] at hc'
  | some c =>
    simp only [hc, Option.map_some, Option.some.injEq] at hc'
    subst hc'
    obtain ⟨_, h2⟩ := h c hc
    refine ⟨by simp, fun hd => ⟨(h2 hd).1, fun _ => ?_⟩⟩
    obtain ⟨p, hp⟩ := hs c hc
    exact ⟨p, .inr hp⟩

theorem mark_inv {env : Env} {s s' : State} {log : List Out} (h : Inv env s log) (h1 : s'.config = s.config)
    (h2 : s'.parser = s.parser) (h3 : s'.marker = true) : Inv env s' log := by
  intro c hc
  rw [h1] at hc
  rw [h2, h3]
  exact ⟨fun _ => rfl, (h c hc).2⟩

theorem saveAs_inv {env : Env} {s : State} {log : List Out} {c : Config} (h : Inv env s log) (hc : s.config = some c)
    (p : Place) (w : Written) :
    Inv env (saveAs s c p w).1 (log ++ if (saveAs s c p w).2 = true then [.saved p c.files] else [.error]) := by
  have base : Inv env { s with store := (doSave s.store p c.files w).1, marker := true } log :=
    mark_inv h rfl rfl rfl
  rcases saveAs_cases s c p w with ⟨h1, _, h2⟩ | ⟨h1, _, h2⟩ <;> rw [h1, h2]
  · refine resetDirty_inv (base.append _) ?_
    intro c' hc'
    rw [hc] at hc'
    cases hc'
    exact ⟨p, by simp⟩
  · exact base.append _

theorem saveToPreset_inv {env : Env} {s : State} {log : List Out} {c : Config} (h : Inv env s log)
    (hc : s.config = some c) (id : String) (answer : Question → Bool) (w : Written) :
    Inv env (saveToPreset env s c id answer w).1 (log ++ (saveToPreset env s c id answer w).2) := by
  have hs := saveAs_inv h hc (.preset id) w
  simp only [saveToPreset]
  cases hk : (saveAs s c (.preset id) w).2 with
  | false => simp only [hk] at hs ⊢; exact hs
  | true =>
    simp only [hk, if_true] at hs ⊢
    have := call_inv hs (.preset id) answer
    simpa using this

theorem step_inv {env : Env} {s : State} {log : List Out} (h : Inv env s log) (e : Ev) :
    Inv env (step env s e).1 (log ++ (step env s e).2) := by
  cases e with
  | type t x => exact (h.append _).congr rfl rfl rfl
  | apply t =>
    apply Inv.append
    simp only [step, applyTab]
    split
    · rename_i c e hc _
      have h1 := initParser_inv h c.files
      split
      · exact h1
      · have h2 := updateFromData_inv h1 ((initParser_config env s c.files).trans hc) (c.files.put t e.text)
        split
        · exact h2
        · exact showConfig_inv h2
    · exact h
  | edit f =>
    apply Inv.append
    simp only [step, editTree]
    split
    · exact h
    · rename_i c hc
      split
      · exact showConfig_inv (setFiles_inv (fun hd => ((h c hc).2 hd).1) f)
      · exact h
  | restart => exact (showConfig_inv h).append _
  | upload i d =>
    apply Inv.append
    simp only [step, upload]
    split
    · exact h
    · rename_i c hc
      have h2 := updateFromData_inv h hc { inputs := i.getD c.files.inputs, display := d.getD c.files.display }
      split
      · exact h2
      · exact showConfig_inv h2
  | save w =>
    simp only [step, saveCurrent]
    cases hc : s.config with
    | none => exact h.append _
    | some c =>
      simp only
      cases hk : (doSave s.store c.place c.files w).2 with
      | false =>
        simp only [Bool.false_eq_true, if_false]
        exact (h.append _).congr hc.symm rfl rfl
      | true =>
        simp only [if_true]
        refine resetDirty_inv (Inv.congr (h.append _) hc.symm rfl rfl) ?_
        intro c' hc'
        simp only [Option.some.injEq] at hc'
        subst hc'
        exact ⟨c.place, by simp⟩
  | saveDevice port confirm answer w =>
    simp only [step, saveDevice]
    cases hc : s.config with
    | none => exact h.append _
    | some c =>
      simp only
      split
      · exact h.append _
      · refine (saveAs_inv h hc (.device port) w).mono ?_
        intro o ho
        simp only [List.mem_append] at ho ⊢
        rcases ho with ho | ho
        · exact .inl ho
        · exact .inr (.inr ho)
  | savePreset id answer w =>
    simp only [step, savePreset]
    cases hc : s.config with
    | none => exact h.append _
    | some c =>
      simp only
      split
      · exact h.append _
      · refine (saveToPreset_inv h hc id answer w).mono ?_
        intro o ho
        simp only [List.mem_append, List.mem_cons] at ho ⊢
        rcases ho with ho | ho
        · exact .inl ho
        · exact .inr (.inr ho)
  | saveNewPreset names answer w =>
    simp only [step, saveNewPreset]
    cases hc : s.config with
    | none => exact h.append _
    | some c =>
      simp only
      split
      · exact h.append _
      · exact saveToPreset_inv h hc _ answer w
  | saveFolder dir answer w =>
    simp only [step, saveFolder]
    cases hc : s.config with
    | none => exact h.append _
    | some c =>
      simp only
      have hs := saveAs_inv (Inv.congr (s' := chooseFolder s dir) h rfl rfl rfl) hc .folder w
      cases hk : (saveAs (chooseFolder s dir) c .folder w).2 with
      | false => simp only [hk] at hs ⊢; exact hs
      | true =>
        simp only [hk, if_true] at hs ⊢
        have := callFolder_inv hs answer
        simpa using this
  | «open» p answer => exact call_inv h p answer
  | openFolder dir answer => exact callFolder_inv (Inv.congr (s' := chooseFolder s dir) h rfl rfl rfl) answer
  | navigate p => exact goTo_inv h p
  | folderChanged dir f answer =>
    simp only [step, folderChanged]
    split
    · exact callFolder_inv (Inv.congr (s' := { writeFolder s dir f with observed := none }) h rfl rfl rfl) answer
    · exact (h.append _).congr rfl rfl rfl
  | deletePreset id answer =>
    simp only [step]
    split
    · exact (h.append _).congr rfl rfl rfl
    · exact h.append _
  | renamePreset id new => exact (h.append _).congr rfl rfl rfl

theorem run_inv {env : Env} (es : List Ev) {s : State} {log : List Out} (h : Inv env s log) :
    Inv env (run env s es).1 (log ++ (run env s es).2) := by
  induction es generalizing s log with
  | nil => simpa [run] using h
  | cons e es ih =>
    have := ih (step_inv h e)
    simp only [run]
    rw [← List.append_assoc]
    exact this

end C128

/-- After every history, the mark for unsaved changes is visible if the current configuration has unsaved changes. -/
theorem C128_marker (env : Env) (st : Store) (es : List Ev) (h : (run env (init st) es).1.unsaved ≠ none) :
    (run env (init st) es).1.marker = true := by
  obtain ⟨c, hc, hd⟩ := unsaved_ne_none.mp h
  have := C128.run_inv (env := env) es (s := init st) (log := []) (by intro c hc; simp [init] at hc)
  exact (this c hc).1 hd

/-- After every history: if the current configuration is shown without unsaved changes, then exactly these files have been
loaded or saved before. Missing: changes of `inputs.py` to another type of controller (`C128_hardware_witness`), here all
texts are for the same one. -/
theorem C128_clean_partial (env : Env) (henv : C128.OneDevice env) (st : Store) (es : List Ev) (f : Files)
    (h : (run env (init st) es).1.files = some f) (hd : (run env (init st) es).1.unsaved = none) :
    ∃ p, .loaded p f ∈ (run env (init st) es).2 ∨ .saved p f ∈ (run env (init st) es).2 := by
  have hi := C128.run_inv (env := env) es (s := init st) (log := []) (by intro c hc; simp [init] at hc)
  simp only [List.nil_append] at hi
  unfold State.files at h
  cases hc : (run env (init st) es).1.config with
  | none => simp [hc] at h
  | some c =>
    simp only [hc, Option.map_some, Option.some.injEq] at h
    subst h
    have hcd : c.dirty = false := by
      cases hx : c.dirty with
      | false => rfl
      | true => exact absurd (unsaved_ne_none.mpr ⟨c, hc, hx⟩) (by simp [hd])
    exact ((hi c hc).2 henv).2 hcd

/- A history with a change, an attempt to save which fails, and one which works. -/
example :
    let r := run C127.env (init C127.store) [.navigate (.device "Captain"), .edit ⟨"mine", "f"⟩, .save .onlyInputs]
    r.1.unsaved = some ⟨"mine", "f"⟩ ∧ r.1.marker = true ∧ r.2 = [.loaded (.device "Captain") ⟨"e", "f"⟩, .error] ∧
    let r := run C127.env r.1 [.save .both]
    r.1.unsaved = none ∧ r.1.marker = false ∧ r.2 = [.saved (.device "Captain") ⟨"mine", "f"⟩] ∧
    stored r.1.store (.device "Captain") = some ⟨"mine", "f"⟩ := by decide +kernel

/-- Changing `inputs.py` in the editor to another type of controller with a text which python does not accept: the page
shows an error, but the configuration now has this text, without unsaved changes. Nothing of it was ever loaded or saved,
and it can be left without any question. -/
theorem C128_hardware_witness :
    let r := run C127.env (init C127.store) [.navigate (.preset "A"), .type .inputs "nano bad", .apply .inputs]
    r.1.files = some ⟨"nano bad", "b"⟩ ∧ r.1.unsaved = none ∧ r.1.marker = false ∧
    r.2 = [.loaded (.preset "A") ⟨"a", "b"⟩, .error] := by decide +kernel

/-- Text which python does not accept becomes part of the configuration although applying it is reported as an error.
Saving stores it, and then the preset cannot be opened any more. -/
theorem C128_broken_witness :
    let r := run C127.env (init C127.store)
      [.navigate (.preset "A"), .type .inputs "bad", .apply .inputs, .save .both, .navigate (.web "x"),
        .navigate (.preset "A")]
    r.2 = [.loaded (.preset "A") ⟨"a", "b"⟩, .error, .saved (.preset "A") ⟨"bad", "b"⟩, .loaded (.web "x") ⟨"inputs", "display"⟩,
      .error] ∧ r.1.config = none := by decide +kernel

/-- After an attempt to save to another folder which fails, saving the current configuration goes to that other folder,
not to the one it has been loaded from. -/
theorem C128_folder_witness :
    let r := run C127.env (init C127.store)
      [.openFolder 0 C127.yes, .edit ⟨"mine", "h"⟩, .saveFolder 1 C127.yes .neither, .save .both]
    r.2 = [.loaded .folder ⟨"g", "h"⟩, .error, .saved .folder ⟨"mine", "h"⟩] ∧ r.1.unsaved = none ∧
    r.1.store.folders 0 = some ⟨"g", "h"⟩ ∧ r.1.store.folders 1 = some ⟨"mine", "h"⟩ := by decide +kernel

/-- If the local folder cannot be found, selecting another one does nothing: the location is the same. -/
theorem C128_select_witness :
    let r := run C127.env (init C127.store) [.openFolder 7 C127.yes]
    r.2 = [.error] ∧ (run C127.env r.1 [.openFolder 0 C127.yes]).2 = [] ∧
    (run C127.env r.1 [.openFolder 0 C127.yes]).1.config = none := by decide +kernel

/-- An empty file in a folder is shown as the template, without unsaved changes. So a file which has been saved empty is not
empty when the folder is opened again. -/
theorem C128_empty_witness :
    let r := run C127.env (init C127.store)
      [.openFolder 0 C127.yes, .edit ⟨"mine", ""⟩, .save .both, .navigate (.web "x"), .navigate .folder]
    r.1.store.folders 0 = some ⟨"mine", ""⟩ ∧ r.1.files = some ⟨"mine", "template display"⟩ ∧ r.1.unsaved = none := by
  decide +kernel

/-! ### C129: presets -/

namespace C128

/-- Nothing is unsaved, and the page does not say so. -/
def Clean (s : State) : Prop := s.unsaved = none ∧ s.marker = false

theorem load_clean (env : Env) (s : State) (p : Place) : Clean (load env s p).1 :=
  ⟨load_unsaved env s p, load_marker env s p⟩

theorem call_clean (env : Env) (s : State) (p : Place) (answer : Question → Bool) (h : Clean s) :
    Clean (call env s p answer).1 := by
  by_cases ha : s.agreed answer
  · rw [call_ok ha]
    rcases goTo_cases env s p with e | e <;> rw [e]
    · exact h
    · exact load_clean env _ p
  · rw [call_no ha]; exact h

theorem callFolder_clean (env : Env) (s : State) (answer : Question → Bool) (h : Clean s) :
    Clean (callFolder env s answer).1 := by
  by_cases hf : s.inFolder
  · rw [callFolder_in hf]; exact load_clean env s _
  · rw [callFolder_out_of hf]; exact call_clean env s _ _ h

theorem resetDirty_clean (s : State) : Clean (resetDirty s) := by
  refine ⟨?_, rfl⟩
  unfold State.unsaved resetDirty
  cases s.config <;> simp

theorem saveAs_clean {s : State} {c : Config} {p : Place} {w : Written} (h : (saveAs s c p w).2 = true) :
    Clean (saveAs s c p w).1 := by
  rcases saveAs_cases s c p w with ⟨_, _, e⟩ | ⟨e, _⟩
  · rw [e]; exact resetDirty_clean _
  · rw [e] at h; cases h

theorem saveToPreset_clean {env : Env} {s : State} {c : Config} {id : String} {answer : Question → Bool} {w : Written}
    {p : Place} {f : Files} (h : .saved p f ∈ (saveToPreset env s c id answer w).2) :
    Clean (saveToPreset env s c id answer w).1 := by
  simp only [saveToPreset] at h ⊢
  cases hk : (saveAs s c (.preset id) w).2 with
  | false => simp [hk] at h
  | true =>
    simp only [if_true]
    exact call_clean env _ _ _ (saveAs_clean hk)

end C128

/-- Whenever the page says that the configuration has been saved, it is no longer taken for changed, and the mark for
unsaved changes is hidden: the user is not asked about these changes again. -/
theorem C128_reset (env : Env) (s : State) (e : Ev) (p : Place) (f : Files) (h : .saved p f ∈ (step env s e).2) :
    (step env s e).1.unsaved = none ∧ (step env s e).1.marker = false := by
  show C128.Clean _
  cases e with
  | type t x => simp [step] at h
  | apply t => exact absurd (C128.applyTab_out env s t h) (by simp)
  | edit g => exact absurd (C128.editTree_out env s g h) (by simp)
  | restart => exact absurd (C128.showConfig_out env s h) (by simp)
  | upload i d => exact absurd (C128.upload_out env s i d h) (by simp)
  | navigate q => rcases goTo_out env s q h with h | ⟨g, h⟩ <;> cases h
  | «open» q answer => rcases call_out env s q answer h with ⟨q, h⟩ | h | ⟨g, h⟩ <;> cases h
  | openFolder dir answer =>
    rcases callFolder_out env (chooseFolder s dir) answer h with ⟨q, h⟩ | h | ⟨g, h⟩ <;> cases h
  | folderChanged dir g answer =>
    simp only [step, folderChanged] at h
    split at h
    · rcases callFolder_out env _ answer h with ⟨q, h⟩ | h | ⟨g, h⟩ <;> cases h
    · simp at h
  | deletePreset id answer =>
    simp only [step] at h
    split at h <;> simp at h
  | renamePreset id new => simp [step] at h
  | save w =>
    simp only [step, saveCurrent] at h ⊢
    cases hc : s.config with
    | none => simp [hc] at h
    | some c =>
      simp only [hc] at h ⊢
      cases hk : (doSave s.store c.place c.files w).2 with
      | false => simp [hk] at h
      | true =>
        simp only [if_true]
        exact C128.resetDirty_clean _
  | saveDevice port confirm answer w =>
    simp only [step, saveDevice] at h ⊢
    cases hc : s.config with
    | none => simp [hc] at h
    | some c =>
      simp only [hc] at h ⊢
      by_cases hn : (confirm && !answer (.saveTo port)) = true
      · rw [if_pos hn] at h
        cases confirm <;> simp at h
      · rw [if_neg hn] at h ⊢
        cases hk : (saveAs s c (.device port) w).2 with
        | false => cases confirm <;> simp [hk] at h
        | true => exact C128.saveAs_clean hk
  | savePreset id answer w =>
    simp only [step, savePreset] at h ⊢
    cases hc : s.config with
    | none => simp [hc] at h
    | some c =>
      simp only [hc] at h ⊢
      split at h
      · simp at h
      · rename_i hn
        rw [if_neg hn]
        simp only [List.mem_cons] at h
        rcases h with h | h
        · cases h
        · exact C128.saveToPreset_clean h
  | saveNewPreset names answer w =>
    simp only [step, saveNewPreset] at h ⊢
    cases hc : s.config with
    | none => simp [hc] at h
    | some c =>
      simp only [hc] at h ⊢
      cases hn : newName s.store.presets names with
      | none => simp [hn] at h
      | some id =>
        simp only [hn] at h ⊢
        exact C128.saveToPreset_clean h
  | saveFolder dir answer w =>
    simp only [step, saveFolder] at h ⊢
    cases hc : s.config with
    | none => simp [hc] at h
    | some c =>
      simp only [hc] at h ⊢
      cases hk : (saveAs (chooseFolder s dir) c .folder w).2 with
      | false => simp [hk] at h
      | true =>
        simp only [if_true]
        exact C128.callFolder_clean env _ _ (C128.saveAs_clean hk)

/-- Uploading files changes the files the user has chosen, and no other ones. -/
theorem C127_upload (env : Env) (s : State) (i d : Option String) (c : Config) (hc : s.config = some c) :
    (step env s (.upload i d)).1.files =
      some { inputs := i.getD c.files.inputs, display := d.getD c.files.display } := by
  have ip : ∀ (s : State) (f : Files), (initParser env s f).1.config = s.config := by
    intro s f; unfold initParser; split <;> rfl
  have sc : ∀ s : State, (showConfig env s).1.files = s.files := by
    intro s
    unfold showConfig State.files
    cases h : s.config with
    | none => simp [h]
    | some c =>
      have := ip s c.files
      simp only
      split <;> simp [this, h]
  have uf : ∀ (s : State) (c : Config) (f : Files), (updateFromData env s c f).1.files = some f := by
    intro s c f
    unfold updateFromData
    simp only
    split
    · unfold State.files; rw [ip]; rfl
    · rfl
  simp only [step, upload, hc]
  split
  · exact uf s c _
  · rw [sc]; exact uf s c _


namespace C129
open C127

theorem nodup_set {ps : List (String × Option Files)} (h : (getAll ps).Nodup) (id : String) (d : Option Files) :
    (getAll (setPreset ps id d)).Nodup := by
  unfold getAll setPreset at *
  rw [List.map_append, List.nodup_append]
  refine ⟨?_, by simp, ?_⟩
  · exact List.Nodup.sublist ((List.filter_sublist).map _) h
  · intro a ha b hb
    simp only [List.map_cons, List.map_nil, List.mem_singleton] at hb
    simp only [List.mem_map, List.mem_filter] at ha
    obtain ⟨p, ⟨_, hp⟩, rfl⟩ := ha
    subst hb
    simpa using hp

theorem nodup_delete {ps : List (String × Option Files)} (h : (getAll ps).Nodup) (id : String) :
    (getAll (deletePreset ps id)).Nodup := by
  unfold getAll deletePreset at *
  exact List.Nodup.sublist ((List.filter_sublist).map _) h

theorem nodup_rename {ps : List (String × Option Files)} (h : (getAll ps).Nodup) (id new : String) :
    (getAll (renamePreset ps id new)).Nodup := by
  unfold renamePreset
  split
  · exact h
  · exact nodup_set (nodup_delete h id) _ _

theorem nodup_doSave {st : Store} (h : (getAll st.presets).Nodup) (p : Place) (f : Files) (w : Written) :
    (getAll (doSave st p f w).1.presets).Nodup := by
  unfold doSave
  cases p with
  | web path => exact h
  | preset id =>
    simp only
    split
    · exact nodup_set h _ _
    · exact h
  | device port =>
    simp only
    split
    · exact h
    · cases w <;> exact h
  | folder =>
    simp only
    split
    · exact h
    · split <;> exact h

/-- The presets after an event are the same, or come from one operation on the list. -/
theorem step_presets (env : Env) (s : State) (e : Ev) :
    (step env s e).1.store.presets = s.store.presets ∨
    (∃ p f w, (step env s e).1.store.presets = (doSave s.store p f w).1.presets) ∨
    (∃ id, (step env s e).1.store.presets = deletePreset s.store.presets id) ∨
    (∃ id new, (step env s e).1.store.presets = renamePreset s.store.presets id new) := by
  have toPreset : ∀ c id answer w, ∃ p f w', (saveToPreset env s c id answer w).1.store.presets =
      (doSave s.store p f w').1.presets := by
    intro c id answer w
    refine ⟨.preset id, c.files, w, ?_⟩
    simp only [saveToPreset]
    split
    · rw [← C128.saveAs_store]; exact (call_store env _ _ answer).1
    · rw [← C128.saveAs_store]
  cases e with
  | type t x => exact .inl rfl
  | apply t =>
    left
    simp only [step, applyTab]
    split
    · split
      · rw [initParser_store]
      · split
        · simp [updateFromData_store, initParser_store]
        · simp [showConfig_store, updateFromData_store, initParser_store]
    · rfl
  | edit f =>
    left
    simp only [step, editTree]
    split
    · rfl
    · split
      · simp [showConfig_store, setFiles]
      · rfl
  | restart => left; simp only [step, showConfig_store]
  | upload i d =>
    left
    simp only [step, upload]
    split
    · rfl
    · split
      · rw [updateFromData_store]
      · simp [showConfig_store, updateFromData_store]
  | save w =>
    simp only [step, saveCurrent]
    cases hc : s.config with
    | none => exact .inl rfl
    | some c =>
      refine .inr (.inl ⟨c.place, c.files, w, ?_⟩)
      simp only
      split <;> rfl
  | saveDevice port confirm answer w =>
    simp only [step, saveDevice]
    cases hc : s.config with
    | none => exact .inl rfl
    | some c =>
      simp only
      split
      · exact .inl rfl
      · exact .inr (.inl ⟨.device port, c.files, w, by rw [C128.saveAs_store]⟩)
  | savePreset id answer w =>
    simp only [step, savePreset]
    cases hc : s.config with
    | none => exact .inl rfl
    | some c =>
      simp only
      split
      · exact .inl rfl
      · exact .inr (.inl (toPreset c id answer w))
  | saveNewPreset names answer w =>
    simp only [step, saveNewPreset]
    cases hc : s.config with
    | none => exact .inl rfl
    | some c =>
      simp only
      split
      · exact .inl rfl
      · exact .inr (.inl (toPreset c _ answer w))
  | saveFolder dir answer w =>
    simp only [step, saveFolder]
    cases hc : s.config with
    | none => exact .inl rfl
    | some c =>
      left
      simp only
      have hd : (doSave (chooseFolder s dir).store .folder c.files w).1.presets = s.store.presets := by
        simp only [doSave]
        split
        · rfl
        · split <;> rfl
      split
      · rw [(callFolder_store env _ answer).1, C128.saveAs_store, hd]
      · rw [C128.saveAs_store, hd]
  | «open» p answer => exact .inl (call_store env s p answer).1
  | openFolder dir answer => exact .inl (callFolder_store env (chooseFolder s dir) answer).1
  | navigate p => exact .inl (goTo_store env s p).1
  | folderChanged dir f answer =>
    left
    simp only [step, folderChanged]
    split
    · exact (callFolder_store env _ answer).1
    · rfl
  | deletePreset id answer =>
    simp only [step]
    split
    · exact .inr (.inr (.inl ⟨id, rfl⟩))
    · exact .inl rfl
  | renamePreset id new => exact .inr (.inr (.inr ⟨id, new, rfl⟩))

end C129

/-- After every history, the list of presets contains no name twice. -/
theorem C129_unique (env : Env) (st : Store) (hst : (getAll st.presets).Nodup) (es : List Ev) :
    (getAll (run env (init st) es).1.store.presets).Nodup := by
  suffices h : ∀ s : State, (getAll s.store.presets).Nodup → (getAll (run env s es).1.store.presets).Nodup from h _ hst
  clear hst
  induction es with
  | nil => exact fun _ h => h
  | cons e es ih =>
    intro s h
    simp only [run]
    apply ih
    rcases C129.step_presets env s e with h1 | ⟨p, f, w, h1⟩ | ⟨id, h1⟩ | ⟨id, new, h1⟩ <;> rw [h1]
    · exact h
    · exact C129.nodup_doSave h p f w
    · exact C129.nodup_delete h id
    · exact C129.nodup_rename h id new

/-- Nothing but these changes or removes a preset: saving the configuration loaded from it, overwriting it after the user
agreed, creating it (only if there was none with this name), deleting it after the user agreed, and renaming. -/
theorem C129_kept (env : Env) (s : State) (e : Ev) (id : String) (h : ¬ WritesPreset s id e) :
    getPreset (step env s e).1.store.presets id = getPreset s.store.presets id := (C128.frame env s e).1 id h

/-- Renaming moves the data to the new name, and leaves all other presets alone. Missing: if there already is a preset with
the new name, it is replaced without a question (`C129_rename_witness`). -/
theorem C129_rename_partial (env : Env) (s : State) (id new : String) (hne : new ≠ "") (hd : id ≠ new)
    (hnew : getPreset s.store.presets new = none) :
    let ps := (step env s (.renamePreset id new)).1.store.presets
    getPreset ps new = getPreset s.store.presets id ∧ getPreset ps id = none ∧
    ∀ other, other ≠ id → getPreset s.store.presets other ≠ none →
      getPreset ps other = getPreset s.store.presets other := by
  simp only [step, renamePreset, if_neg hne]
  refine ⟨by simp [getPreset_set], by simp [getPreset_set, getPreset_delete, Ne.symm hd], ?_⟩
  intro other h1 h2
  have h3 : new ≠ other := fun h => h2 (h ▸ hnew)
  simp [getPreset_set, getPreset_delete, Ne.symm h1, h3]

/-- Renaming a preset to its own name keeps everything. -/
theorem C129_rename_same (env : Env) (s : State) (id other : String) :
    getPreset (step env s (.renamePreset id id)).1.store.presets other = getPreset s.store.presets other := by
  simp only [step, renamePreset]
  split
  · rfl
  · simp only [getPreset_set, getPreset_delete]
    split
    · rename_i h; rw [h]
    · rfl

/-- A new preset has one of the names the user has entered, and there was no preset with this name. -/
theorem C129_new (env : Env) (s : State) (names : List String) (answer : Question → Bool) (w : Written) (id : String)
    (f : Files) (h : .saved (.preset id) f ∈ (step env s (.saveNewPreset names answer w)).2) :
    id ∈ names ∧ id ≠ "" ∧ getPreset s.store.presets id = none ∧
    getPreset (step env s (.saveNewPreset names answer w)).1.store.presets id = some f := by
  have hs := (C128_saved env s _ _ _ h).2
  simp only [step, saveNewPreset] at h
  cases hc : s.config with
  | none => simp [hc] at h
  | some c =>
    simp only [hc] at h
    cases hn : newName s.store.presets names with
    | none => simp [hn] at h
    | some id' =>
      simp only [hn] at h
      obtain ⟨_, h2, _⟩ := C128.saveToPreset_saved h
      cases h2
      obtain ⟨h3, h4, h5⟩ := newName_some hn
      exact ⟨h3, h5, h4, hs⟩

/-- Every preset which can be opened is in the list. -/
theorem C129_list (st : Store) (id : String) (h : hasPreset st.presets id = true) : id ∈ getAll st.presets := by
  unfold hasPreset at h
  revert h
  generalize st.presets = ps
  intro h
  induction ps with
  | nil => simp [getPreset] at h
  | cons a l ih =>
    simp only [getPreset] at h
    split at h
    · rename_i ha; simp [getAll, ha]
    · have := ih h
      simp only [getAll, List.map_cons, List.mem_cons] at this ⊢
      exact .inr this

/-- Renaming a preset to the name of another one removes that other one, without a question. -/
theorem C129_rename_witness :
    let r := step C127.env (init C127.store) (.renamePreset "A" "B")
    r.2 = [] ∧ getPreset C127.store.presets "B" = some ⟨"c", "d"⟩ ∧ r.1.store.presets = [("B", some ⟨"a", "b"⟩)] := by
  decide +kernel

/- Saving to a new preset after entering a name which exists already, and renaming it. -/
example :
    let r := run C127.env (init C127.store)
      [.navigate (.web "x"), .saveNewPreset ["A", "C"] C127.yes .both, .renamePreset "C" "D", .deletePreset "A" C127.no,
        .deletePreset "B" C127.yes]
    r.2 = [.loaded (.web "x") ⟨"inputs", "display"⟩, .saved (.preset "C") ⟨"inputs", "display"⟩,
      .loaded (.preset "C") ⟨"inputs", "display"⟩, .asked (.delete "A") false, .asked (.delete "B") true] ∧
    r.1.store.presets = [("A", some ⟨"a", "b"⟩), ("D", some ⟨"inputs", "display"⟩)] := by decide +kernel

end PySwitch.Props
