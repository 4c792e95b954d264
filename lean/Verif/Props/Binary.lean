import Verif.Lemmas.Binary
/-
C35, C36, C63, C64: on/off parameters.
-/
namespace PySwitch.Props
open PySwitch.Binary

/-- Example configuration: a parameter with the values 0 and 1, or an effect level. -/
def exBinary : Binary.Config :=
  { compare := .greaterEqual, reference := 10, enable := .one 10, color := fun _ _ => 7 }

/-! ### C35 -/

/-- C35. After any history, when a new value arrives which differs from the one known before (or when the value is
lost), the switch is on exactly if the documented comparison says so. -/
theorem C35_changed_partial (c : Binary.Config) (hc : c.compare ≠ .noStateChange) (d₀ : OneOrMany DVal) (h : List Op)
    (v : Option Int) (hv : v ≠ (run c (initial d₀) h).2.value) :
    (run c (initial d₀) (h ++ [.value v])).2.state = true ↔ IsOn c.compare c.reference v := by
  have hs := (run_inv hc d₀ h).2
  rw [(run_snoc c _ h _).1]
  generalize (run c (initial d₀) h).2 = st at hv hs
  have : (step c st (.value v)).1.state = evaluate c st.state v := by
    simp only [step]
    rw [(updateDisplays_fields c _).2.1]
    unfold evalPart
    rw [if_pos]
    · rfl
    · rcases hs.sync with hs | ⟨hs, _⟩
      · simp only [hs, ne_eq, Option.some.injEq]; exact fun h => hv h.symm
      · simp [hs]
  rw [this, evaluate_iff hc]

example : (run exBinary (initial (.one (.num 0))) ([.value (some 12), .toggle none] ++ [.value (some 11)])).2.state =
    true := by decide

/-- The value known after a history is the last one reported. -/
theorem C35_value (c : Binary.Config) (d₀ : OneOrMany DVal) (h : List Op) (o : Op) :
    (run c (initial d₀) (h ++ [o])).2.value =
      match o with
      | .value v => v
      | .enable v => v
      | .toggle (some v) => some v
      | .shot (some v) => some v
      | _ => (run c (initial d₀) h).2.value := by
  rw [(run_snoc c _ h _).1]
  generalize (run c (initial d₀) h).2 = st
  cases o with
  | value v => exact (updateDisplays_sync c _).2
  | enable v => exact (updateDisplays_sync c _).2
  | reset => exact (updateDisplays_sync c _).2
  | shotEnd => exact (updateDisplays_sync c _).2
  | toggle fb =>
    cases fb with
    | none => exact (updateDisplays_sync c _).2
    | some v => simp only [step, toggle]; rw [(updateDisplays_sync c _).2, (updateDisplays_sync c _).2]
  | shot fb =>
    cases fb with
    | none => exact (updateDisplays_sync c _).2
    | some v => simp only [step, toggle]; rw [(updateDisplays_sync c _).2, (updateDisplays_sync c _).2]

/-- C35. As long as the user does not push the switch, the state always is the documented comparison of the current
value with the reference value. -/
theorem C35_device_only (c : Binary.Config) (hc : c.compare ≠ .noStateChange) (d₀ : OneOrMany DVal) (h : List Op)
    (hd : ∀ o ∈ h, (∃ v, o = .value v) ∨ (∃ v, o = .enable v) ∨ o = .reset) :
    (run c (initial d₀) h).2.state = true ↔
      IsOn c.compare c.reference (run c (initial d₀) h).2.value := by
  have key : ∀ h : List Op, (∀ o ∈ h, (∃ v, o = .value v) ∨ (∃ v, o = .enable v) ∨ o = .reset) → ∀ st : State,
      ((st.currentValue = none ∧ st.value = none ∨ st.currentValue = some st.value) ∧
        (st.state = true ↔ IsOn c.compare c.reference st.value)) →
      ((run c st h).2.state = true ↔ IsOn c.compare c.reference (run c st h).2.value) := by
    intro h
    induction h with
    | nil => intro _ st hst; exact hst.2
    | cons o h ih =>
      intro hd st hst
      refine ih (fun o ho => hd o (List.mem_cons_of_mem _ ho)) _ ?_
      have upd : ∀ st' : State, (st'.currentValue = some st'.value →
          (st'.state = true ↔ IsOn c.compare c.reference st'.value)) →
          ((updateDisplays c st').1.currentValue = none ∧ (updateDisplays c st').1.value = none ∨
            (updateDisplays c st').1.currentValue = some (updateDisplays c st').1.value) ∧
          ((updateDisplays c st').1.state = true ↔ IsOn c.compare c.reference (updateDisplays c st').1.value) := by
        intro st' hst'
        obtain ⟨e1, e2⟩ := updateDisplays_sync c st'
        refine ⟨.inr (by rw [e1, e2]), ?_⟩
        rw [e2, (updateDisplays_fields c st').2.1]
        by_cases hs : st'.currentValue = some st'.value
        · have : evalPart c st' = st' := by unfold evalPart; simp [hs]
          rw [this]; exact hst' hs
        · have : evalPart c st' = evaluateValue c { st' with currentValue := some st'.value } st'.value := by
            unfold evalPart; simp [hs]
          rw [this]
          exact evaluate_iff hc _ _
      rcases hd o (by simp) with ⟨v, rfl⟩ | ⟨v, rfl⟩ | rfl
      · refine upd { st with value := v } ?_
        intro hcur
        simp only at hcur
        rcases hst.1 with ⟨h0, _⟩ | h0
        · rw [h0] at hcur; simp at hcur
        · rw [h0] at hcur
          simp only [Option.some.injEq] at hcur
          have := hst.2
          rw [hcur] at this
          exact this
      · exact upd { reset st with value := v } (by simp [reset])
      · exact upd { reset st with state := false } (by simp [reset])
  exact key h hd _ ⟨.inl ⟨rfl, rfl⟩, by simp [initial, IsOn]⟩

example : (run exBinary (initial (.one (.num 0))) [.value (some 3), .value (some 10), .value none]).2.state = false := by
  decide
example : (run exBinary (initial (.one (.num 0))) [.value (some 3), .value (some 10), .value (some 10)]).2.state =
    true := by decide

/-- C35. When the action is reset or enabled again, the state is evaluated from the current value. -/
theorem C35_reset (c : Binary.Config) (hc : c.compare ≠ .noStateChange) (d₀ : OneOrMany DVal) (h : List Op) :
    ((run c (initial d₀) (h ++ [.reset])).2.state = true ↔
      IsOn c.compare c.reference (run c (initial d₀) h).2.value) ∧
    ∀ v, (run c (initial d₀) (h ++ [.enable v])).2.state = true ↔ IsOn c.compare c.reference v := by
  constructor
  · rw [(run_snoc c _ h _).1]
    generalize (run c (initial d₀) h).2 = st
    simp only [step]
    rw [(updateDisplays_fields c _).2.1]
    unfold evalPart
    rw [if_pos (by simp [reset])]
    exact evaluate_iff hc _ _
  · intro v
    rw [(run_snoc c _ h _).1]
    generalize (run c (initial d₀) h).2 = st
    simp only [step]
    rw [(updateDisplays_fields c _).2.1]
    unfold evalPart
    rw [if_pos (by simp [reset])]
    exact evaluate_iff hc _ _

/-- C35 fails for a repeated value: if the device refuses to be switched on and reports the same value as before,
the switch stays on although the parameter is off. -/
theorem C35_stale : ∃ (c : Binary.Config) (h : List Op), c.compare ≠ .noStateChange ∧
    h.getLast? = some (.value (some 0)) ∧
    (run c (initial (.one (.num 0))) h).2.state = true ∧
    ¬ IsOn c.compare c.reference (run c (initial (.one (.num 0))) h).2.value :=
  ⟨exBinary, [.value (some 0), .toggle none, .value (some 0)], by decide, by decide, by decide, by decide⟩

/-! ### C36 -/

/-- C36. With `value_disable = "auto"`, after any history: when the user switches off, exactly one value is sent,
the last one received while the parameter was off; nothing is sent if there was none. -/
theorem C36_single (c : Binary.Config) (hc : c.compare ≠ .noStateChange) (h : List Op) (fb : Option Int)
    (hon : (run c (initial (.one .auto)) h).2.state = true) :
    sets (step c (run c (initial (.one .auto)) h).2 (.toggle fb)).2 =
      match lastOff c.compare c.reference h with
      | some n => [(c.hasMappingDisable, .one n)]
      | none => [] := by
  have hi := (run_inv hc (.one .auto) h).1
  generalize (run c (initial (.one .auto)) h).2 = st at hi hon
  simp only [step, sets_toggle]
  simp only [stateChanged, hi.dis, resolveWith, hon, sets_append]
  cases lastOff c.compare c.reference h <;> simp [resolved, resolve1, sets]

example : sets (step exBinary (run exBinary (initial (.one .auto))
    [.value (some 4), .value (some 6), .toggle (some 10), .value (some 11)]).2 (.toggle none)).2 = [(false, .one 6)] := by
  decide

/-- C36 for a list of values: every entry which is set to `"auto"` is replaced by the last value received while the
parameter was off, the others are sent as configured; nothing is sent if an entry is `"auto"` and there was no such
value. -/
theorem C36_list (c : Binary.Config) (hc : c.compare ≠ .noStateChange) (ds : List DVal) (h : List Op) (fb : Option Int)
    (hon : (run c (initial (.many ds)) h).2.state = true) :
    sets (step c (run c (initial (.many ds)) h).2 (.toggle fb)).2 =
      match lastOff c.compare c.reference h with
      | some n => [(c.hasMappingDisable, .many (ds.map (fun d => match d with | .num k => k | .auto => n)))]
      | none => match ds.mapM DVal.num? with
        | some ns => [(c.hasMappingDisable, .many ns)]
        | none => [] := by
  have hi := (run_inv hc (.many ds) h).1
  generalize (run c (initial (.many ds)) h).2 = st at hi hon
  simp only [step, sets_toggle]
  simp only [stateChanged, hi.dis, resolveWith, hon, sets_append]
  cases hl : lastOff c.compare c.reference h with
  | none =>
    have : ds.map (resolve1 none) = ds := by
      clear hi hl
      induction ds with
      | nil => rfl
      | cons d ds ih => rw [List.map_cons, ih]; cases d <;> rfl
    rw [this]
    simp only [resolved]
    cases ds.mapM DVal.num? <;> simp [sets]
  | some n =>
    have : (ds.map (resolve1 (some n))).mapM DVal.num? =
        some (ds.map (fun d => match d with | .num k => k | .auto => n)) := by
      clear hi hl
      induction ds with
      | nil => rfl
      | cons d ds ih =>
        rw [List.map_cons, List.map_cons, List.mapM_cons, ih]
        cases d <;> rfl
    simp only [resolved]
    rw [this]
    simp [sets]

example : sets (step exBinary (run exBinary (initial (.many [.num 1, .auto]))
    [.value (some 4), .toggle (some 10)]).2 (.toggle none)).2 = [(false, .many [1, 4])] := by
  decide

/-! ### C63 -/

/-- C63. With a single value for "off", every time the user switches on the enable value is sent exactly once, by
the mapping itself. -/
theorem C63_enable (c : Binary.Config) (st : State) (hd : ∃ d, st.disable = .one d) (fb : Option Int)
    (hoff : st.state = false) :
    sets (step c st (.toggle fb)).2 = [(false, enableSent c.enable)] := by
  obtain ⟨d, hd⟩ := hd
  simp only [step, sets_toggle]
  simp [stateChanged, hd, hoff, sets]

/-- C63. A callback configured with a single value for "off" keeps a single value in every history. -/
theorem C63_single_stays (c : Binary.Config) (d : DVal) (h : List Op) :
    ∃ d', (run c (initial (.one d)) h).2.disable = .one d' := by
  have rem : ∀ (st : State) (s : Bool) (v : Option Int), (∃ d', st.disable = .one d') →
      ∃ d', remember st s v = .one d' := by
    rintro st s v ⟨d', hd⟩
    cases v with
    | none => exact ⟨d', by simp [remember, hd]⟩
    | some n =>
      cases s with
      | true => exact ⟨d', by simp [remember, hd]⟩
      | false =>
        cases hu : st.updateDisabled with
        | one b => cases b <;> simp [remember, hd, hu]
        | many us => simp [remember, hd, hu]
  have ud : ∀ st : State, (∃ d', st.disable = .one d') → ∃ d', (updateDisplays c st).1.disable = .one d' := by
    intro st hd
    rw [(updateDisplays_fields c st).2.2.1]
    unfold evalPart
    split
    · exact rem _ _ _ hd
    · exact hd
  have key : ∀ (h : List Op) (st : State), (∃ d', st.disable = .one d') → ∃ d', (run c st h).2.disable = .one d' := by
    intro h
    induction h with
    | nil => intro st hd; exact hd
    | cons o h ih =>
      intro st hd
      refine ih _ ?_
      cases o with
      | value v => exact ud _ hd
      | shotEnd => exact ud _ hd
      | reset => exact ud _ hd
      | enable v => exact ud _ hd
      | toggle fb => cases fb with
        | none => exact ud _ hd
        | some v => exact ud _ (ud _ hd)
      | shot fb => cases fb with
        | none => exact ud _ hd
        | some v => exact ud _ (ud _ hd)
  exact key h _ ⟨d, rfl⟩

/-- C63. With fixed values for "off" (one or several), every switching by the user sends exactly one message: the
enable value when switching on, the configured value when switching off. -/
theorem C63_fixed_partial (c : Binary.Config) (d₀ : OneOrMany DVal) (v : Sent)
    (hv : resolved d₀ = some v) (h : List Op) (fb : Option Int) :
    sets (step c (run c (initial d₀) h).2 (.toggle fb)).2 =
      if (run c (initial d₀) h).2.state then [(c.hasMappingDisable, v)] else [(false, enableSent c.enable)] := by
  have hd := run_fixed c hv h
  generalize (run c (initial d₀) h).2 = st at hd
  simp only [step, sets_toggle]
  simp only [stateChanged, hd, sets_append]
  cases d₀ with
  | one d => cases hst : st.state <;> simp [hv, sets]
  | many ds => cases hst : st.state <;> simp [hv, sets]

example : resolved (.many [.num 0, .num 3]) = some (.many [0, 3]) := by decide

/-- C63 fails for a list of "off" values of which one is still to be learned: switching on sends nothing at all. -/
theorem C63_enable_blocked : ∃ (c : Binary.Config) (ds : List DVal) (h : List Op),
    (run c (initial (.many ds)) h).2.state = false ∧
    sets (step c (run c (initial (.many ds)) h).2 (.toggle none)).2 = [] ∧
    (step c (run c (initial (.many ds)) h).2 (.toggle none)).1.state = true :=
  ⟨exBinary, [.num 0, .auto], [.enable none], by decide, by decide, by decide⟩

/-! ### C64 -/

/-- C64. After any history, the LEDs, the label and its text show the current state: the color for the state and
value; bright exactly if the state is on (and reported by the device or kept internally). -/
theorem C64_display (c : Binary.Config) (d₀ : OneOrMany DVal) (h : List Op) (hne : h ≠ []) :
    let es := (run c (initial d₀) h).1.flatten
    let st := (run c (initial d₀) h).2
    leds none es = some (c.color st.state st.value, st.state && c.reported) ∧
    (c.hasLabel = true → label none es = some (c.color st.state st.value, st.state && c.reported)) ∧
    (c.hasLabel = true → c.hasText = true →
      text none es = some (st.state || !c.reported || !c.hasTextDisabled)) := by
  obtain ⟨h', o, rfl⟩ : ∃ h' o, h = h' ++ [o] := ⟨h.dropLast, h.getLast hne, (List.dropLast_concat_getLast hne).symm⟩
  have hd : Disp c (leds none (run c (initial d₀) h').1.flatten) (label none (run c (initial d₀) h').1.flatten)
      (text none (run c (initial d₀) h').1.flatten) (run c (initial d₀) h').2 :=
    run_disp h' ⟨by simp [initial], by simp [initial], by simp [initial]⟩
  obtain ⟨r1, r2⟩ := run_snoc c (initial d₀) h' o
  simp only
  rw [r1, r2]
  obtain ⟨hd', e1, e2⟩ := step_disp hd o
  simp only [List.flatten_append, List.flatten_cons, List.flatten_nil, List.append_nil, leds_append, label_append,
    text_append]
  exact ⟨hd'.led _ _ e1 e2, hd'.lab _ _ e1 e2, hd'.txt _ _ e1 e2⟩

example : leds none (run exBinary (initial (.one (.num 0))) [.value (some 3), .value (some 10)]).1.flatten =
    some (7, true) := by decide

/-- C64. When the action is enabled again or reset, everything is drawn anew, whatever has been shown meanwhile. -/
theorem C64_redraw (c : Binary.Config) (st : State) (o : Op) (ho : o = .reset ∨ ∃ v, o = .enable v) (l : Option (Nat × Bool)) :
    leds l (step c st o).2 =
      some (c.color (step c st o).1.state (step c st o).1.value, (step c st o).1.state && c.reported) := by
  have key : ∀ st', st'.displayState = none → ∀ l, leds l (updateDisplays c st').2 =
      some (c.color (updateDisplays c st').1.state (updateDisplays c st').1.value,
        (updateDisplays c st').1.state && c.reported) := by
    intro st' hn l
    have := (evalPart_disp c st').2
    rw [hn] at this
    rw [updateDisplays_eq]
    simp only
    rw [if_pos (by simp [this])]
    simp only [display]
    cases c.hasLabel <;> cases c.hasText <;> simp [leds]
  rcases ho with rfl | ⟨v, rfl⟩
  · exact key _ (by simp [reset]) l
  · exact key _ (by simp [reset]) l

end PySwitch.Props
