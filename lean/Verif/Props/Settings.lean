import Verif.Lemmas.Settings

/-! C125: the device uses the settings which have been chosen in the dialog. -/

namespace PySwitch.Props

open PySwitch.Settings PySwitch.Spec.Settings

namespace C125

/-- The value of an option of the dialog is the one which has been chosen. -/
theorem attr (history : List Change) (hp : Possible history) (f : String × Bool) (hf : f ∈ fields) :
    pyValue (getAttribute (run history) f.1) = chosen history f.1 := by
  have h := lookup_run history hp f.1
  obtain ⟨v, hv, hi, -⟩ := defaults_initially f hf
  simp only [getAttribute]
  cases hl : (run history).lookup f.1 with
  | some w => rw [hl] at h; exact h.1
  | none => rw [hl] at h; simp only [hv, Option.getD_some]; rw [hi, h]

theorem kinds (n : String) : ¬ ((n, true) ∈ fields ∧ (n, false) ∈ fields) := by
  intro h
  have : ∀ f ∈ fields, ∀ g ∈ fields, f.1 = g.1 → f.2 = g.2 := by decide
  exact absurd (this _ h.1 _ h.2 rfl) (by simp)

/-- An option is commented out only if the chosen value is the initial one. -/
theorem commented (history : List Change) (hp : Possible history) (f : String × Bool) (hf : f ∈ fields)
    (hd : isDefault f.1 (getAttribute (run history) f.1) = true) : chosen history f.1 = initially f.1 := by
  have ha := attr history hp f hf
  obtain ⟨v, hv, hi, hk⟩ := defaults_initially f hf
  rw [← ha, ← hi]
  have h := lookup_run history hp f.1
  simp only [getAttribute] at hd ⊢
  cases hl : (run history).lookup f.1 with
  | none => simp only [hv, Option.getD_some]
  | some w =>
    rw [hl] at h
    simp only [hl, isDefault, hv] at hd
    have hw := h.2
    obtain ⟨n, k⟩ := f
    simp only at hw hk hf hd ⊢
    cases v <;> cases w <;> simp only [looseEq, Bool.false_eq_true, beq_iff_eq] at hd <;> simp only [Fits] at hw <;>
      simp only [pyValue] <;> first
        | (subst hd; rfl)
        | (subst hk; exact absurd (And.intro hf hw) (kinds n))
        | (subst hk; exact absurd (And.intro hw hf) (kinds n))
        | exact absurd hk id

theorem template_fields : ∀ n ∈ template.filterMap Line.tokenName, ∃ f ∈ fields, f.1 = n := by decide

theorem fields_template : ∀ f ∈ fields, .token f.1 ∈ template := by decide

/-- What is in the file for an option. -/
theorem loaded (history : List Change) (hp : Possible history) (c : List (String × PyVal))
    (hc : loadConfig (render (run history)) = some c) (f : String × Bool) (hf : f ∈ fields) :
    (c.lookup f.1 = chosen history f.1 ∧ chosen history f.1 ≠ initially f.1) ∨ (c.lookup f.1 = none ∧ chosen history f.1 = initially f.1)
      ∨ (c.lookup f.1 = chosen history f.1 ∧ chosen history f.1 ≠ none) := by
  have hl := load_lookup _ c hc f.1
  rw [render_eq] at hl
  have := find_entry (run history) template (.token f.1) (by decide) (fields_template f hf)
  simp only [Line.name] at this
  rw [this] at hl
  have ha := attr history hp f hf
  have e : sub (fun _ => true) (entryFor (run history)) (.token f.1) = entryFor (run history) f.1 := by simp [sub]
  rw [e] at hl
  simp only [entryFor] at hl
  by_cases hd : isDefault f.1 (getAttribute (run history) f.1) = true
  · rw [if_pos hd] at hl
    exact .inr (.inl ⟨hl, commented history hp f hf hd⟩)
  · rw [if_neg hd] at hl
    simp only [Line.gives, if_true] at hl
    rw [ha] at hl
    refine .inr (.inr ⟨hl, ?_⟩)
    have := (load_iff _).1 ⟨c, hc⟩ (.active f.1 (getAttribute (run history) f.1)) (by
      rw [render_eq, List.mem_map]
      refine ⟨_, fields_template f hf, ?_⟩
      rw [e, entryFor]
      simp only [if_neg hd])
    have this : pyValue (getAttribute (run history) f.1) ≠ none := this
    rw [ha] at this
    exact this

/-- The same values are the defaults in the dialog and in the code. -/
theorem same_defaults (c : List (String × PyVal)) : ∀ r ∈ reads, (∃ f ∈ fields, f.1 = r.name) ∧ some (r.default c) = initially r.name := by
  intro r hr
  simp only [reads, List.mem_cons, List.not_mem_nil, or_false] at hr
  rcases hr with h | h | h | h | h | h | h | h | h | h | h | h | h | h | h | h <;> subst h <;>
    exact ⟨by decide, by simp only []; decide +kernel⟩

end C125

/-- The file can be loaded if, and only if, no field is left empty. -/
theorem C125_loads (history : List Change) (hp : Possible history) :
    (∃ config, loadConfig (render (run history)) = some config) ↔ Filled history := by
  rw [load_iff, render_eq]
  constructor
  · intro h f hf
    have := h (sub (fun _ => true) (entryFor (run history)) (.token f.1)) (List.mem_map.2 ⟨_, C125.fields_template f hf, rfl⟩)
    have e : sub (fun _ => true) (entryFor (run history)) (.token f.1) = entryFor (run history) f.1 := by simp [sub]
    rw [e, entryFor] at this
    by_cases hd : isDefault f.1 (getAttribute (run history) f.1) = true
    · rw [C125.commented history hp f hf hd]
      obtain ⟨v, -, hi, hk⟩ := defaults_initially f hf
      rw [← hi]
      cases v <;> simp [pyValue] at hk ⊢
    · rw [if_neg hd] at this
      rw [← C125.attr history hp f hf]
      exact this
  · intro h l hl
    obtain ⟨x, hx, rfl⟩ := List.mem_map.1 hl
    cases x with
    | token n =>
      obtain ⟨f, hf, rfl⟩ := C125.template_fields n (List.mem_filterMap.2 ⟨_, hx, rfl⟩)
      have e : sub (fun _ => true) (entryFor (run history)) (.token f.1) = entryFor (run history) f.1 := by simp [sub]
      rw [e, entryFor]
      by_cases hd : isDefault f.1 (getAttribute (run history) f.1) = true
      · rw [if_pos hd]; trivial
      · rw [if_neg hd]
        simp only
        rw [C125.attr history hp f hf]
        exact h f hf
    | commented n v => trivial
    | active n v =>
      have : ∀ l ∈ template, l.tokenName = none → l = .active "enableMidiBridge" (.bool true) := by decide
      have := this _ hx rfl
      cases this
      simp [sub, pyValue]

/-- After any changes in the dialog, each place where the firmware reads an option of the generated file gets the value which has been chosen for
it. Missing: the interval of the statistics of the controller (see `C125_interval_partial`, `C125_interval_witness`), and changes which leave
a field empty (`C125_empty_witness`). -/
theorem C125_used_partial (history : List Change) (hp : Possible history) (hf : Filled history) :
    ∃ config, loadConfig (render (run history)) = some config ∧
      ∀ r ∈ reads, some (readOption config r.name (r.default config)) = chosen history r.name := by
  obtain ⟨c, hc⟩ := (C125_loads history hp).2 hf
  refine ⟨c, hc, ?_⟩
  intro r hr
  obtain ⟨⟨f, hff, hn⟩, hd⟩ := C125.same_defaults c r hr
  have := C125.loaded history hp c hc f hff
  rw [hn] at this
  simp only [readOption_eq]
  have hne : chosen history r.name ≠ none := by rw [← hn]; exact hf f hff
  rcases this with ⟨h, -⟩ | ⟨h, h'⟩ | ⟨h, -⟩
  · rw [h]
    cases hx : chosen history r.name with
    | none => exact absurd hx hne
    | some x => rfl
  · rw [h, h', Option.getD_none, hd]
  · rw [h]
    cases hx : chosen history r.name with
    | none => exact absurd hx hne
    | some x => rfl

/-- The statistics of the controller are shown in the interval chosen, if this is not the one shown initially (2000); else, in the chosen update
interval. -/
theorem C125_interval_partial (history : List Change) (hp : Possible history) (hf : Filled history) :
    ∃ config, loadConfig (render (run history)) = some config ∧
      some (readOption config intervalRead.name (intervalRead.default config)) =
        if chosen history "debugStatsInterval" = some (.num 2000) then chosen history "updateInterval" else chosen history "debugStatsInterval" := by
  obtain ⟨c, hc, hr⟩ := C125_used_partial history hp hf
  refine ⟨c, hc, ?_⟩
  have hu := hr ⟨"controller.py:48", "updateInterval", fun _ => .num 200⟩ (by simp [reads])
  have hne := hf ("debugStatsInterval", false) (by decide)
  have ha := C125.attr history hp ("debugStatsInterval", false) (by decide)
  have hl := load_lookup _ c hc "debugStatsInterval"
  rw [render_eq] at hl
  have hfe := find_entry (run history) template (.token "debugStatsInterval") (by decide) (by decide)
  simp only [Line.name] at hfe
  rw [hfe] at hl
  have e : sub (fun _ => true) (entryFor (run history)) (.token "debugStatsInterval") = entryFor (run history) "debugStatsInterval" := by simp [sub]
  rw [e] at hl
  simp only [entryFor] at hl
  simp only [intervalRead, readOption_eq] at hu ⊢
  by_cases hd : isDefault "debugStatsInterval" (getAttribute (run history) "debugStatsInterval") = true
  · rw [if_pos hd] at hl
    have hi := C125.commented history hp ("debugStatsInterval", false) (by decide) hd
    have : chosen history "debugStatsInterval" = some (.num 2000) := hi
    rw [if_pos this, ← hu, hl]
    rfl
  · rw [if_neg hd] at hl
    simp only [Line.gives, if_true] at hl
    simp only at ha
    rw [ha] at hl
    have hx : chosen history "debugStatsInterval" ≠ some (.num 2000) := by
      intro hx
      apply hd
      rw [hx] at ha
      cases hg : getAttribute (run history) "debugStatsInterval" with
      | num x =>
        rw [hg] at ha
        simp only [pyValue, Option.some.injEq, PyVal.num.injEq] at ha
        subst ha
        decide +kernel
      | bool b => rw [hg] at ha; simp [pyValue] at ha
      | null => rw [hg] at ha; simp [pyValue] at ha
    rw [if_neg hx, hl]
    cases hy : chosen history "debugStatsInterval" with
    | none => exact absurd hy hne
    | some y => rfl

/-- The file transfer is always enabled by the generated file, so that the device can be reached from the editor again. -/
theorem C125_bridge (history : List Change) (config : List (String × PyVal))
    (h : loadConfig (render (run history)) = some config) : readOption config "enableMidiBridge" (.bool false) = .bool true := by
  have hl := load_lookup _ config h "enableMidiBridge"
  rw [render_eq] at hl
  have hfe := find_entry (run history) template (.active "enableMidiBridge" (.bool true)) (by decide) (by decide)
  simp only [Line.name] at hfe
  rw [hfe] at hl
  simp only [readOption_eq, hl]
  rfl

/-- The emulator uses the chosen values, too, without any file. Missing: the same as for the file. -/
theorem C125_emulator_partial (history : List Change) (hp : Possible history) (hf : Filled history) (r : Read) (hr : r ∈ reads) :
    some (readOption (emulated (run history)) r.name (r.default (emulated (run history)))) = chosen history r.name := by
  obtain ⟨⟨f, hff, hn⟩, hd⟩ := C125.same_defaults (emulated (run history)) r hr
  have hne : chosen history r.name ≠ none := by rw [← hn]; exact hf f hff
  have h := lookup_run history hp r.name
  have he : ∀ d : Data, (emulated d).lookup r.name = (d.lookup r.name).map toPy := by
    intro d
    induction d with
    | nil => rfl
    | cons e d ih =>
      obtain ⟨m, v⟩ := e
      simp only [emulated, List.map_cons, List.lookup_cons] at ih ⊢
      cases r.name == m <;> simp [ih]
  simp only [readOption_eq, he]
  cases hl : (run history).lookup r.name with
  | none =>
    rw [hl] at h
    simp only [Option.map_none, Option.getD_none]
    rw [hd, h]
  | some v =>
    rw [hl] at h
    simp only [Option.map_some, Option.getD_some]
    rw [← h.1] at hne ⊢
    cases v <;> simp [pyValue, toPy] at hne ⊢

/-- An interval of 2000 is chosen for the statistics, and one of 500 for updates. The controller shows the statistics every 500
milliseconds (although the emulator does so every 2000). -/
theorem C125_interval_witness :
    ∃ history, Possible history ∧ Filled history ∧ chosen history "debugStatsInterval" = some (.num 2000) ∧
      (∃ config, loadConfig (render (run history)) = some config ∧
        readOption config intervalRead.name (intervalRead.default config) = .num 500) ∧
      readOption (emulated (run history)) intervalRead.name (intervalRead.default (emulated (run history))) = .num 2000 :=
  ⟨[.choose "updateInterval" (.number (some 500)), .choose "debugStats" (.check true), .choose "debugStatsInterval" (.number (some 2000))],
    by decide +kernel, by decide +kernel, by decide +kernel,
    ⟨[("updateInterval", .num 500), ("enableMidiBridge", .bool true), ("debugStats", .bool true)], by decide +kernel, by decide +kernel⟩,
    by decide +kernel⟩

/-- A field is left empty. The device cannot load its configuration. -/
theorem C125_empty_witness : ∃ history, Possible history ∧ loadConfig (render (run history)) = none :=
  ⟨[.choose "updateInterval" (.number none)], by decide +kernel, by decide +kernel⟩

/-- Check boxes and numbers are changed, some back to their initial values, after a reset. -/
example : ∃ history, Possible history ∧ Filled history ∧ history.length = 6 ∧
    chosen history "ledBrightnessOn" = some (.num (3 / 4)) ∧ chosen history "clearBuffers" = some (.bool false) ∧
    chosen history "exploreMode" = some (.bool false) ∧
    loadConfig (render (run history)) =
      some [("clearBuffers", .bool false), ("enableMidiBridge", .bool true), ("ledBrightnessOn", .num (3 / 4))] :=
  ⟨[.choose "exploreMode" (.check true), .reset, .choose "ledBrightnessOn" (.number none), .choose "ledBrightnessOn" (.number (some (3 / 4))),
    .choose "clearBuffers" (.check false), .choose "updateInterval" (.number (some 200))], by decide +kernel⟩

/-- Every field of the dialog is read somewhere. -/
example : ∀ f ∈ fields, ∃ r ∈ reads, r.name = f.1 := by decide

end PySwitch.Props
