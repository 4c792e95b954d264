import Verif.Spec.Startup

namespace PySwitch.Props
open PySwitch.Startup PySwitch.Startup.Spec

namespace C111

variable {E : Type}

theorem perform_ok (fails : Step → Option E) (l : List Step) (h : ∀ s ∈ l, fails s = none) :
    perform fails l = (l, none) := by
  induction l with
  | nil => rfl
  | cons s l ih =>
    simp [perform, h s (by simp), ih (fun t ht => h t (by simp [ht]))]

theorem perform_fail (fails : Step → Option E) (a : List Step) (s : Step) (b : List Step) (e : E)
    (h : ∀ t ∈ a, fails t = none) (hs : fails s = some e) :
    perform fails (a ++ s :: b) = (a ++ [s], some e) := by
  induction a with
  | nil => simp [perform, hs]
  | cons t a ih =>
    simp [perform, h t (by simp), ih (fun t ht => h t (by simp [ht]))]

/-- Two lists of steps one after the other. -/
theorem perform_append (fails : Step → Option E) (a b : List Step) :
    perform fails (a ++ b) =
      match (perform fails a).2 with
      | some e => ((perform fails a).1, some e)
      | none => ((perform fails a).1 ++ (perform fails b).1, (perform fails b).2) := by
  induction a with
  | nil => simp [perform]
  | cons s a ih =>
    simp only [List.cons_append, perform]
    cases hs : fails s with
    | some e => simp
    | none =>
      simp only [ih]
      cases h : (perform fails a).2 <;> simp

/-- The step which fails is the last one tried. -/
theorem perform_last (fails : Step → Option E) (l : List Step) (e : E) (h : (perform fails l).2 = some e) :
    ∃ s ∈ l, (perform fails l).1.getLast? = some s := by
  induction l with
  | nil => simp [perform] at h
  | cons s l ih =>
    cases hs : fails s with
    | some e' => exact ⟨s, by simp, by simp [perform, hs]⟩
    | none =>
      simp only [perform, hs] at h
      obtain ⟨t, ht, hl⟩ := ih h
      exact ⟨t, by simp [ht], by simp [perform, hs, List.getLast?_cons, hl]⟩

/-- How an error is treated, given the last step which has been tried. -/
def ending (bridge : Bool) (r : List Step × Option E) : List Step × End E :=
  (r.1, match r.2 with
    | none => .running
    | some e => if bridge && (r.1.getLast?.map repairable).getD false then .bridged e else .raised e)

theorem process_eq (fails : Step → Option E) (c : Config) (ticks : Nat) :
    process fails c ticks = ending c.enableMidiBridge (perform fails (plan c ticks)) := by
  have hno : ∀ (pre l : List Step) (e : E), (∀ t ∈ l, repairable t = false) →
      (perform fails l).2 = some e →
      ((pre ++ (perform fails l).1).getLast?.map repairable).getD false = false := by
    intro pre l e hl he
    obtain ⟨s, hs, h⟩ := perform_last fails l e he
    simp [List.getLast?_append, h, hl s hs]
  have hyes : ∀ (pre l : List Step) (e : E), (∀ t ∈ l, repairable t = true) →
      (perform fails l).2 = some e →
      ((pre ++ (perform fails l).1).getLast?.map repairable).getD false = true := by
    intro pre l e hl he
    obtain ⟨s, hs, h⟩ := perform_last fails l e he
    simp [List.getLast?_append, h, hl s hs]
  have h1 : ∀ t ∈ [Step.showDisplay, .loadConfig], repairable t = false := by decide
  have hplan : plan c ticks = [.showDisplay, .loadConfig] ++
      (if c.exploreMode then [.createExplorer, .initExplorer] ++ (List.range ticks).map .exploreTick
      else [.loadModules, .loadCommunication, .openMidi c.enableMidiBridge] ++
        ([.loadDisplays, .loadInputs, .createController, .initController] ++
          (List.range ticks).map .tick)) := by simp [plan]
  rw [hplan, perform_append]
  simp only [process]
  generalize [Step.showDisplay, .loadConfig] = head at *
  cases e1 : (perform fails head).2 with
  | some e =>
    have := hno [] _ e h1 e1
    simp at this
    simp [ending, this]
  | none =>
    simp only
    cases he : c.exploreMode
    · have h2 : ∀ t ∈ [Step.loadModules, .loadCommunication, .openMidi c.enableMidiBridge],
          repairable t = false := by simp [repairable]
      have h3 : ∀ t ∈ ([.loadDisplays, .loadInputs, .createController, .initController] ++
            (List.range ticks).map Step.tick), repairable t = true := by
        intro t ht
        simp at ht
        rcases ht with rfl | rfl | rfl | rfl | ⟨n, _, rfl⟩ <;> rfl
      simp only [Bool.false_eq_true, if_false, tried]
      generalize [Step.loadModules, .loadCommunication, .openMidi c.enableMidiBridge] = mid at *
      generalize ([.loadDisplays, .loadInputs, .createController, .initController] ++
            (List.range ticks).map Step.tick) = body at *
      rw [perform_append]
      cases e2 : (perform fails mid).2 with
      | some e =>
        have := hno (perform fails head).1 _ e h2 e2
        simp only [ending, this, Bool.and_false, Bool.false_eq_true, if_false]
      | none =>
        simp only
        cases e3 : (perform fails body).2 with
        | some e =>
          have := hyes ((perform fails head).1 ++ (perform fails mid).1) _ e h3 e3
          rw [List.append_assoc] at this
          simp only [ending, this, Bool.and_true, List.append_assoc]
        | none => simp [ending]
    · have h2 : ∀ t ∈ ([.createExplorer, .initExplorer] ++ (List.range ticks).map Step.exploreTick),
          repairable t = false := by
        intro t ht
        simp at ht
        rcases ht with rfl | rfl | ⟨n, _, rfl⟩ <;> rfl
      simp only [if_true]
      generalize ([.createExplorer, .initExplorer] ++ (List.range ticks).map Step.exploreTick) = body at *
      cases e2 : (perform fails body).2 with
      | some e =>
        have := hno (perform fails head).1 _ e h2 e2
        simp only [ending, this, Bool.and_false, Bool.false_eq_true, if_false]
      | none => simp [ending]

end C111

/-- **C111** If nothing goes wrong, the display is shown, the configuration files are loaded one
after the other, and the processing loop runs. -/
theorem C111_running {E : Type} (fails : Step → Option E) (c : Config) (ticks : Nat)
    (h : ∀ s ∈ plan c ticks, fails s = none) :
    process fails c ticks = (plan c ticks, .running) := by
  rw [C111.process_eq, C111.perform_ok fails _ h]
  rfl

/-- **C111** If something goes wrong anywhere, nothing more is done. The error reaches the user: by the
MIDI bridge, if it is enabled and has been opened before, so that the files on the device can be
repaired. Otherwise it is raised, after the display has been switched on first of all. -/
theorem C111_error {E : Type} (fails : Step → Option E) (c : Config) (ticks : Nat)
    (a : List Step) (s : Step) (b : List Step) (e : E) (hp : plan c ticks = a ++ s :: b)
    (ha : ∀ t ∈ a, fails t = none) (hs : fails s = some e) :
    process fails c ticks =
      (a ++ [s], if c.enableMidiBridge && repairable s then .bridged e else .raised e) := by
  rw [C111.process_eq, hp, C111.perform_fail fails a s b e ha hs]
  simp [C111.ending]

/-- A wrong `inputs.py`, and an exception in the fifth round. -/
example : process (fun s => if s = .loadInputs then some "NameError" else none) ⟨false, true⟩ 9 =
    ([.showDisplay, .loadConfig, .loadModules, .loadCommunication, .openMidi true, .loadDisplays,
      .loadInputs], .bridged "NameError") := by decide +kernel
example : (process (fun s => if s = .tick 4 then some "TypeError" else none) {} 9).2 =
    .raised "TypeError" := by decide +kernel

/-- **C111** In explore mode the device runs whatever is in the other configuration files. -/
theorem C111_explore {E : Type} (fails : Step → Option E) (c : Config) (ticks : Nat)
    (he : c.exploreMode = true)
    (h : ∀ s, fails s ≠ none → s = .loadCommunication ∨ s = .loadDisplays ∨ s = .loadInputs) :
    (process fails c ticks).2 = .running := by
  rw [C111_running]
  intro s hs
  apply Classical.byContradiction
  intro hf
  simp [plan, he] at hs
  rcases h s hf with rfl | rfl | rfl <;> simp at hs

example : (process (fun s => if s = .loadCommunication then some "x" else none) ⟨true, true⟩ 9).2 =
    .running := by decide +kernel

/-- **C111** Exactly one side can write files: the host, if the switch has been held (its pin is low) at
power up, otherwise the device. -/
theorem C111_boot (level : Bool) :
    (boot level).usbDrive = !level ∧ (boot level).writable = !(boot level).usbDrive := by
  cases level <;> decide

/-! ### The memory check -/

/-- **C112** A text set to any label is replaced by the warning if and only if less memory is free at
start than the limit configured (15 kB, if there is none). -/
theorem C112_warning (config : Option (List (String × Int))) (free limit : Int) (l : Label.LabelState)
    (texts : List String) (t : String)
    (hl : limit = ((config.getD []).lookup "memoryWarnLimitBytes").getD 15360) :
    (labelAfter none l (lowMemoryWarning config free) (texts ++ [t])).text =
        (if free < limit then "Low Memory!" else t) ∧
      ∃ d, (labelAfter none l (lowMemoryWarning config free) (texts ++ [t])).drawn = some d ∧
        d.text = if free < limit then "Low Memory!" else t := by
  have hw : lowMemoryWarning config free = decide (free < limit) := by
    have hg : getOption config "memoryWarnLimitBytes" (1024 * 15) = limit := by
      subst hl
      rcases config with _ | _ | ⟨x, xs⟩
      · rfl
      · rfl
      · simp only [getOption, Option.getD_some]
        cases (x :: xs).lookup "memoryWarnLimitBytes" <;> rfl
    simp only [lowMemoryWarning, hg]
  rw [hw]
  have wrap_none : ∀ t, Label.wrapText none t = t := by
    intro t
    simp only [Label.wrapText]
    split
    · next h => exact h.symm
    · rfl
  have key : ∀ (m : Label.LabelState) (w : Bool) (t : String) (d : Label.Drawn), m.drawn = some d → d.text = m.text →
      (m.setText none t w).text = (if w then "Low Memory!" else t) ∧
      ∃ d', (m.setText none t w).drawn = some d' ∧ d'.text = (m.setText none t w).text := by
    intro m w t d hd ht
    simp only [Label.LabelState.setText, wrap_none]
    generalize (if w then "Low Memory!" else t) = x
    by_cases hx : m.text = x
    · simp [hx, hd, ht]
    · simp [hx, hd]
  have inv : ∀ (texts : List String) (m : Label.LabelState) (w : Bool), (∃ d, m.drawn = some d ∧ d.text = m.text) →
      ∃ d, (texts.foldl (fun l t => l.setText none t w) m).drawn = some d ∧
        d.text = (texts.foldl (fun l t => l.setText none t w) m).text := by
    intro texts
    induction texts with
    | nil => intro m w h; exact h
    | cons x xs ih =>
      intro m w ⟨d, hd, ht⟩
      obtain ⟨_, d', h1, h2⟩ := key m w x d hd ht
      exact ih _ w ⟨d', h1, h2⟩
  obtain ⟨d, hd, ht⟩ := inv texts (l.init none false) (decide (free < limit)) (by
    simp only [Label.LabelState.init, wrap_none]
    exact ⟨_, rfl, rfl⟩)
  obtain ⟨h1, d', h2, h3⟩ := key _ (decide (free < limit)) t d hd ht
  simp only [labelAfter, List.foldl_append, List.foldl_cons, List.foldl_nil]
  refine ⟨by simpa using h1, d', h2, ?_⟩
  rw [h3, h1]; simp

example : (labelAfter none (.create "a" none none) (lowMemoryWarning none 15359) ["b", "c"]).text =
    "Low Memory!" := by decide +kernel
example : (labelAfter none (.create "a" none none)
    (lowMemoryWarning (some [("memoryWarnLimitBytes", 1000)]) 1000) ["b", "c"]).text = "c" := by decide +kernel

end PySwitch.Props
