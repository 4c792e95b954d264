import Verif.Spec.Binary
/-
Helper lemmas for on/off parameters.
-/
namespace PySwitch.Binary

theorem evaluate_iff {c : Config} (hc : c.compare ≠ .noStateChange) (s : Bool) (v : Option Int) :
    evaluate c s v = true ↔ IsOn c.compare c.reference v := by
  cases v with
  | none => simp [evaluate, IsOn]
  | some v =>
    cases h : c.compare <;> simp_all [evaluate, IsOn]

/-- An entry for "off", after the last value seen while the parameter was off. -/
def resolve1 : Option Int → DVal → DVal
  | some n, .auto => .num n
  | _, d => d

/-- The values for "off", after the last value seen while the parameter was off. -/
def resolveWith (lo : Option Int) : OneOrMany DVal → OneOrMany DVal
  | .one d => .one (resolve1 lo d)
  | .many ds => .many (ds.map (resolve1 lo))

/-- The last value seen while the parameter was off, after another value. -/
def newLo (c : Config) (lo : Option Int) : Option Int → Option Int
  | none => lo
  | some n => if IsOn c.compare c.reference (some n) then lo else some n

/-- The value received in an event. -/
def received1 : Op → Option Int
  | .value v => v
  | .toggle v => v
  | .shot v => v
  | .enable v => v
  | _ => none

structure Inv (c : Config) (d₀ : OneOrMany DVal) (lo : Option Int) (st : State) : Prop where
  upd : st.updateDisabled = (initial d₀).updateDisabled
  dis : st.disable = resolveWith lo d₀
  cur : ∀ n, st.currentValue = some (some n) → ¬ IsOn c.compare c.reference (some n) → lo = some n

structure Sync (st : State) : Prop where
  sync : st.currentValue = some st.value ∨ (st.currentValue = none ∧ st.value = none)

theorem evaluateValue_fields (c : Config) (st : State) (v : Option Int) :
    (evaluateValue c st v).updateDisabled = st.updateDisabled ∧
    (evaluateValue c st v).currentValue = st.currentValue ∧
    (evaluateValue c st v).value = st.value ∧
    (evaluateValue c st v).currentColor = st.currentColor ∧
    (evaluateValue c st v).displayState = st.displayState ∧
    (evaluateValue c st v).state = evaluate c st.state v := by
  simp [evaluateValue]

theorem remember_resolve {c : Config} (hc : c.compare ≠ .noStateChange) {d₀ lo st} (s : Bool)
    (hu : st.updateDisabled = (initial d₀).updateDisabled) (hd : st.disable = resolveWith lo d₀) (v : Option Int) :
    remember st (evaluate c s v) v = resolveWith (newLo c lo v) d₀ := by
  cases v with
  | none => simp [remember, newLo, hd]
  | some n =>
    have h := evaluate_iff hc s (some n)
    by_cases hon : IsOn c.compare c.reference (some n)
    · have h' := h.2 hon
      simp [remember, newLo, hon, h', hd]
    · have h' : evaluate c s (some n) = false := by
        cases he : evaluate c s (some n) with
        | false => rfl
        | true => exact absurd (h.1 he) hon
      rw [h']
      simp only [remember, newLo, hon, if_false, hu, hd, initial]
      cases d₀ with
      | one d => cases d <;> cases lo <;> simp [resolveWith, resolve1]
      | many ds =>
        simp only [resolveWith, Bool.false_eq_true, if_false, OneOrMany.many.injEq]
        rw [List.zipWith_map]
        clear hu hd
        induction ds with
        | nil => rfl
        | cons d ds ih =>
          simp only [List.zipWith_cons_cons, List.map_cons, List.cons.injEq]
          refine ⟨?_, ih⟩
          cases d <;> cases lo <;> simp [resolve1]

/-- `update_displays` in two parts: the value and the display. -/
def evalPart (c : Config) (st : State) : State :=
  if st.currentValue ≠ some st.value
    then evaluateValue c { st with currentValue := some st.value } st.value else st

theorem updateDisplays_eq (c : Config) (st : State) :
    updateDisplays c st =
      let st' := evalPart c st
      let color := c.color st'.state st'.value
      if st'.currentColor ≠ some color || st'.displayState ≠ some st'.state then
        ({ st' with currentColor := some color, displayState := some st'.state }, display c st'.state color)
      else (st', []) := rfl

theorem updateDisplays_fields (c : Config) (st : State) :
    (updateDisplays c st).1.value = (evalPart c st).value ∧
    (updateDisplays c st).1.state = (evalPart c st).state ∧
    (updateDisplays c st).1.disable = (evalPart c st).disable ∧
    (updateDisplays c st).1.updateDisabled = (evalPart c st).updateDisabled ∧
    (updateDisplays c st).1.currentValue = (evalPart c st).currentValue := by
  rw [updateDisplays_eq]
  simp only
  split <;> simp

theorem evalPart_value (c : Config) (st : State) : (evalPart c st).value = st.value := by
  unfold evalPart; split <;> simp [evaluateValue]

theorem evalPart_current (c : Config) (st : State) : (evalPart c st).currentValue = some st.value := by
  unfold evalPart; split
  · simp [evaluateValue]
  · rename_i h; simpa using h

theorem evalPart_inv {c : Config} (hc : c.compare ≠ .noStateChange) {d₀ lo st} (h : Inv c d₀ lo st) :
    Inv c d₀ (newLo c lo st.value) (evalPart c st) := by
  have hcur := evalPart_current c st
  have hlo : ∀ n, (evalPart c st).currentValue = some (some n) → ¬ IsOn c.compare c.reference (some n) →
      newLo c lo st.value = some n := by
    intro n hn hoff
    rw [hcur] at hn
    have hn : st.value = some n := by simpa using hn
    rw [hn]; simp [newLo, hoff]
  by_cases hs : st.currentValue = some st.value
  · have he : evalPart c st = st := by unfold evalPart; simp [hs]
    have hn : newLo c lo st.value = lo := by
      cases hv : st.value with
      | none => rfl
      | some n =>
        by_cases hon : IsOn c.compare c.reference (some n)
        · simp [newLo, hon]
        · have := h.cur n (by rw [hs, hv]) hon
          simp [newLo, hon, this]
    rw [he, hn]; exact h
  · have he : evalPart c st = evaluateValue c { st with currentValue := some st.value } st.value := by
      unfold evalPart; simp [hs]
    refine ⟨?_, ?_, hlo⟩
    · rw [he]; simpa [evaluateValue] using h.upd
    · rw [he]
      show remember _ (evaluate c _ _) _ = _
      exact remember_resolve hc _ (st := { st with currentValue := some st.value }) h.upd h.dis _

theorem updateDisplays_inv {c : Config} (hc : c.compare ≠ .noStateChange) {d₀ lo st} (h : Inv c d₀ lo st) :
    Inv c d₀ (newLo c lo st.value) (updateDisplays c st).1 := by
  have he := evalPart_inv hc h
  obtain ⟨_, _, h3, h4, h5⟩ := updateDisplays_fields c st
  exact ⟨by rw [h4]; exact he.upd, by rw [h3]; exact he.dis, by rw [h5]; exact he.cur⟩

theorem updateDisplays_sync (c : Config) (st : State) :
    (updateDisplays c st).1.currentValue = some st.value ∧ (updateDisplays c st).1.value = st.value := by
  obtain ⟨h1, _, _, _, h5⟩ := updateDisplays_fields c st
  exact ⟨by rw [h5, evalPart_current], by rw [h1, evalPart_value]⟩

theorem newLo_sync {c : Config} {d₀ lo st} (h : Inv c d₀ lo st) (hs : Sync st) : newLo c lo st.value = lo := by
  rcases hs.sync with hs | ⟨_, hs⟩
  · cases hv : st.value with
    | none => rfl
    | some n =>
      by_cases hon : IsOn c.compare c.reference (some n)
      · simp [newLo, hon]
      · have := h.cur n (by rw [hs, hv]) hon
        simp [newLo, hon, this]
  · rw [hs]; rfl

theorem toggle_inv {c : Config} (hc : c.compare ≠ .noStateChange) {d₀ lo st} (h : Inv c d₀ lo st) (hs : Sync st)
    (fb : Option Int) : Inv c d₀ (newLo c lo fb) (toggle c st fb).1 ∧ Sync (toggle c st fb).1 := by
  have h1 : Inv c d₀ lo { st with state := !st.state } := ⟨h.upd, h.dis, h.cur⟩
  have hs1 : Sync { st with state := !st.state } := ⟨hs.sync⟩
  cases fb with
  | none =>
    have h2 := updateDisplays_inv hc h1
    rw [newLo_sync h1 hs1] at h2
    obtain ⟨e1, e2⟩ := updateDisplays_sync c { st with state := !st.state }
    exact ⟨h2, ⟨.inl (by simp only [toggle]; rw [e1, e2])⟩⟩
  | some v =>
    have h2 : Inv c d₀ lo { st with state := !st.state, value := some v } := ⟨h.upd, h.dis, h.cur⟩
    have h3 := updateDisplays_inv hc h2
    obtain ⟨e1, e2⟩ := updateDisplays_sync c { st with state := !st.state, value := some v }
    have s3 : Sync (updateDisplays c { st with state := !st.state, value := some v }).1 := ⟨.inl (by rw [e1, e2])⟩
    have h4 := updateDisplays_inv hc h3
    rw [newLo_sync h3 s3] at h4
    obtain ⟨e3, e4⟩ := updateDisplays_sync c (updateDisplays c { st with state := !st.state, value := some v }).1
    exact ⟨h4, ⟨.inl (by simp only [toggle]; rw [e3, e4])⟩⟩

theorem step_inv {c : Config} (hc : c.compare ≠ .noStateChange) {d₀ lo st} (h : Inv c d₀ lo st) (hs : Sync st)
    (o : Op) : Inv c d₀ (newLo c lo (received1 o)) (step c st o).1 ∧ Sync (step c st o).1 := by
  have sy : ∀ st', Sync (updateDisplays c st').1 := fun st' => by
    obtain ⟨e1, e2⟩ := updateDisplays_sync c st'
    exact ⟨.inl (by rw [e1, e2])⟩
  cases o with
  | value v => exact ⟨updateDisplays_inv hc (st := { st with value := v }) ⟨h.upd, h.dis, h.cur⟩, sy _⟩
  | toggle fb => exact toggle_inv hc h hs fb
  | shot fb => exact toggle_inv hc (st := { st with state := false }) ⟨h.upd, h.dis, h.cur⟩ ⟨hs.sync⟩ fb
  | shotEnd =>
    have := updateDisplays_inv hc (st := { st with state := false }) (lo := lo) (d₀ := d₀) ⟨h.upd, h.dis, h.cur⟩
    rw [show ({ st with state := false } : State).value = st.value from rfl, newLo_sync h hs] at this
    exact ⟨this, sy _⟩
  | reset =>
    have := updateDisplays_inv hc (st := { reset st with state := false }) (lo := lo) (d₀ := d₀)
      ⟨h.upd, h.dis, by simp [reset]⟩
    rw [show ({ reset st with state := false } : State).value = st.value from rfl, newLo_sync h hs] at this
    exact ⟨this, sy _⟩
  | enable v =>
    exact ⟨updateDisplays_inv hc (st := { reset st with value := v }) ⟨h.upd, h.dis, by simp [reset]⟩, sy _⟩

theorem lastOff_fold (c : Config) (h : List Op) (lo : Option Int) :
    h.foldl (fun lo o => newLo c lo (received1 o)) lo = (lastOff c.compare c.reference h).or lo := by
  induction h generalizing lo with
  | nil => simp [lastOff, received]
  | cons o h ih =>
    rw [List.foldl_cons, ih]
    have key : ∀ n, (received (o :: h) = n :: received h) →
        (lastOff c.compare c.reference h).or (newLo c lo (some n)) = (lastOff c.compare c.reference (o :: h)).or lo := by
      intro n hn
      simp only [lastOff, hn, newLo]
      by_cases hon : IsOn c.compare c.reference (some n)
      · simp [hon]
      · simp only [hon, if_false, List.filter_cons, not_false_eq_true, decide_true, if_true, List.getLast?_cons]
        cases (List.filter (fun v => decide (¬IsOn c.compare c.reference (some v))) (received h)).getLast? <;> simp
    cases o with
    | value v => cases v with
      | none => rfl
      | some n => exact key n rfl
    | toggle v => cases v with
      | none => rfl
      | some n => exact key n rfl
    | shot v => cases v with
      | none => rfl
      | some n => exact key n rfl
    | enable v => cases v with
      | none => rfl
      | some n => exact key n rfl
    | shotEnd => rfl
    | reset => rfl

theorem run_inv_aux {c : Config} (hc : c.compare ≠ .noStateChange) {d₀} (h : List Op) {lo st} (hi : Inv c d₀ lo st)
    (hs : Sync st) :
    Inv c d₀ (h.foldl (fun lo o => newLo c lo (received1 o)) lo) (run c st h).2 ∧ Sync (run c st h).2 := by
  induction h generalizing lo st with
  | nil => exact ⟨hi, hs⟩
  | cons o h ih =>
    obtain ⟨h1, h2⟩ := step_inv hc hi hs o
    exact ih h1 h2

theorem initial_inv (c : Config) (d₀ : OneOrMany DVal) : Inv c d₀ none (initial d₀) ∧ Sync (initial d₀) := by
  refine ⟨⟨rfl, ?_, by simp [initial]⟩, ⟨.inr ⟨rfl, rfl⟩⟩⟩
  cases d₀ with
  | one d => cases d <;> rfl
  | many ds =>
    simp only [initial, resolveWith, OneOrMany.many.injEq]
    induction ds with
    | nil => rfl
    | cons d ds ih => rw [List.map_cons, ← ih]; cases d <;> rfl

theorem run_inv {c : Config} (hc : c.compare ≠ .noStateChange) (d₀) (h : List Op) :
    Inv c d₀ (lastOff c.compare c.reference h) (run c (initial d₀) h).2 ∧ Sync (run c (initial d₀) h).2 := by
  obtain ⟨hi, hs⟩ := initial_inv c d₀
  have := run_inv_aux hc h hi hs
  rw [lastOff_fold] at this
  simpa using this

theorem run_sync_aux (c : Config) (h : List Op) {st} (hs : Sync st) : Sync (run c st h).2 := by
  have sy : ∀ st', Sync (updateDisplays c st').1 := fun st' => by
    obtain ⟨e1, e2⟩ := updateDisplays_sync c st'
    exact ⟨.inl (by rw [e1, e2])⟩
  induction h generalizing st with
  | nil => exact hs
  | cons o h ih =>
    refine ih ?_
    cases o <;> simp only [step, toggle] <;> exact sy _

theorem run_snoc (c : Config) (st : State) (h : List Op) (o : Op) :
    (run c st (h ++ [o])).2 = (step c (run c st h).2 o).1 ∧
    (run c st (h ++ [o])).1 = (run c st h).1 ++ [(step c (run c st h).2 o).2] := by
  induction h generalizing st with
  | nil => exact ⟨rfl, rfl⟩
  | cons p h ih =>
    obtain ⟨h1, h2⟩ := ih (step c st p).1
    exact ⟨h1, by simp only [List.cons_append, run]; rw [h2]⟩

/-! Fixed values for "off" -/

theorem num?_all {ds : List DVal} {ns : List Int} (h : ds.mapM DVal.num? = some ns) : ∀ d ∈ ds, d ≠ .auto := by
  induction ds generalizing ns with
  | nil => simp
  | cons d ds ih =>
    rw [List.mapM_cons] at h
    cases d with
    | auto => simp [DVal.num?] at h
    | num n =>
      cases hds : ds.mapM DVal.num? with
      | none => rw [hds] at h; simp [DVal.num?] at h
      | some ms =>
        intro d hd
        rcases List.mem_cons.1 hd with rfl | hd
        · simp
        · exact ih hds d hd

theorem remember_fixed {d₀ : OneOrMany DVal} {v : Sent} (hv : resolved d₀ = some v) {st : State}
    (hu : st.updateDisabled = (initial d₀).updateDisabled) (hd : st.disable = d₀) (s : Bool) (x : Option Int) :
    remember st s x = d₀ := by
  cases x with
  | none => simp [remember, hd]
  | some n =>
    cases s with
    | true => simp [remember, hd]
    | false =>
      cases d₀ with
      | one d => cases d with
        | num k => simp [remember, hd, hu, initial]
        | auto => simp [resolved] at hv
      | many ds =>
        simp only [resolved, Option.map_eq_some_iff] at hv
        obtain ⟨ns, hns, _⟩ := hv
        have hall := num?_all hns
        simp only [remember, hd, hu, initial, Bool.false_eq_true, if_false, OneOrMany.many.injEq]
        rw [List.zipWith_map_left]
        clear hu hd hns
        induction ds with
        | nil => rfl
        | cons d ds ih =>
          rw [List.zipWith_cons_cons, ih (fun d hd => hall d (List.mem_cons_of_mem _ hd))]
          have := hall d (by simp)
          simp [this]

theorem run_fixed (c : Config) {d₀ : OneOrMany DVal} {v : Sent} (hv : resolved d₀ = some v) (h : List Op) :
    (run c (initial d₀) h).2.disable = d₀ := by
  have ud : ∀ st : State, (st.updateDisabled = (initial d₀).updateDisabled ∧ st.disable = d₀) →
      ((updateDisplays c st).1.updateDisabled = (initial d₀).updateDisabled ∧
        (updateDisplays c st).1.disable = d₀) := by
    intro st hst
    obtain ⟨_, _, h3, h4, _⟩ := updateDisplays_fields c st
    rw [h3, h4]
    unfold evalPart
    split
    · exact ⟨hst.1, remember_fixed hv (st := { st with currentValue := some st.value }) hst.1 hst.2 _ _⟩
    · exact hst
  have key : ∀ (h : List Op) (st : State), (st.updateDisabled = (initial d₀).updateDisabled ∧ st.disable = d₀) →
      (run c st h).2.disable = d₀ := by
    intro h
    induction h with
    | nil => intro st hst; exact hst.2
    | cons o h ih =>
      intro st hst
      refine ih _ ?_
      cases o with
      | value v => exact ud { st with value := v } hst
      | shotEnd => exact ud { st with state := false } hst
      | reset => exact ud { reset st with state := false } hst
      | enable v => exact ud { reset st with value := v } hst
      | toggle fb => cases fb with
        | none => exact ud { st with state := !st.state } hst
        | some v => exact ud _ (ud { st with state := !st.state, value := some v } hst)
      | shot fb => cases fb with
        | none => exact ud { st with state := !false } hst
        | some v => exact ud _ (ud { st with state := !false, value := some v } hst)
  refine key h _ ⟨rfl, rfl⟩

/-! Displays -/

/-- The LEDs, the label and the text as they should be. -/
def shown (c : Config) (st : State) : Prop :=
  st.currentColor = some (c.color st.state st.value) ∧ st.displayState = some st.state

theorem sets_append (a b : List Eff) : sets (a ++ b) = sets a ++ sets b := by
  induction a with
  | nil => rfl
  | cons e a ih => cases e <;> simp [sets, ih]

theorem sets_updateDisplays (c : Config) (st : State) : sets (updateDisplays c st).2 = [] := by
  rw [updateDisplays_eq]; simp only
  split
  · simp only [display]; cases c.hasLabel <;> cases c.hasText <;> simp [sets]
  · rfl

theorem sets_toggle (c : Config) (st : State) (fb : Option Int) :
    sets (toggle c st fb).2 = sets (stateChanged c { st with state := !st.state }) := by
  simp only [toggle, sets_append, sets_updateDisplays, List.append_nil]
  cases fb with
  | none => simp [sets]
  | some v => simp [sets_updateDisplays]

theorem leds_append (s) (a b : List Eff) : leds s (a ++ b) = leds (leds s a) b := by
  induction a generalizing s with
  | nil => rfl
  | cons e a ih => cases e <;> simp [leds, ih]

theorem label_append (s) (a b : List Eff) : label s (a ++ b) = label (label s a) b := by
  induction a generalizing s with
  | nil => rfl
  | cons e a ih => cases e <;> simp [label, ih]

theorem text_append (s) (a b : List Eff) : text s (a ++ b) = text (text s a) b := by
  induction a generalizing s with
  | nil => rfl
  | cons e a ih => cases e <;> simp [text, ih]

/-- What the displays show, compared with what the callback believes they show. -/
structure Disp (c : Config) (l : Option (Nat × Bool)) (b : Option (Nat × Bool)) (t : Option Bool) (st : State) :
    Prop where
  led : ∀ col s, st.currentColor = some col → st.displayState = some s → l = some (col, s && c.reported)
  lab : ∀ col s, st.currentColor = some col → st.displayState = some s → c.hasLabel = true →
    b = some (col, s && c.reported)
  txt : ∀ col s, st.currentColor = some col → st.displayState = some s → c.hasLabel = true → c.hasText = true →
    t = some (s || !c.reported || !c.hasTextDisabled)

theorem Disp.congr {c l b t st st'} (h : Disp c l b t st) (h1 : st'.currentColor = st.currentColor)
    (h2 : st'.displayState = st.displayState) : Disp c l b t st' :=
  ⟨by rw [h1, h2]; exact h.led, by rw [h1, h2]; exact h.lab, by rw [h1, h2]; exact h.txt⟩

theorem evalPart_disp (c : Config) (st : State) :
    (evalPart c st).currentColor = st.currentColor ∧ (evalPart c st).displayState = st.displayState := by
  unfold evalPart; split <;> simp [evaluateValue]

theorem updateDisplays_disp {c l b t st} (h : Disp c l b t st) :
    Disp c (leds l (updateDisplays c st).2) (label b (updateDisplays c st).2) (text t (updateDisplays c st).2)
      (updateDisplays c st).1 ∧
    (updateDisplays c st).1.currentColor =
      some (c.color (updateDisplays c st).1.state (updateDisplays c st).1.value) ∧
    (updateDisplays c st).1.displayState = some (updateDisplays c st).1.state := by
  have he := h.congr (evalPart_disp c st).1 (evalPart_disp c st).2
  rw [updateDisplays_eq]
  simp only
  generalize evalPart c st = s at he
  split
  · refine ⟨⟨?_, ?_, ?_⟩, rfl, rfl⟩
    · intro col s' h1 h2
      simp only [Option.some.injEq] at h1 h2
      subst h1 h2
      simp only [display]
      cases c.hasLabel <;> cases c.hasText <;> simp [leds]
    · intro col s' h1 h2 hl
      simp only [Option.some.injEq] at h1 h2
      subst h1 h2
      simp only [display]
      cases c.hasText <;> simp [label, hl]
    · intro col s' h1 h2 hl ht
      simp only [Option.some.injEq] at h1 h2
      subst h1 h2
      simp [display, text, hl, ht]
  · rename_i hn
    simp only [ne_eq, Bool.or_eq_true, decide_eq_true_eq, not_or, Classical.not_not] at hn
    exact ⟨he, hn.1, hn.2⟩

theorem stateChanged_disp (c : Config) (st : State) (l b t) :
    leds l (stateChanged c st) = l ∧ label b (stateChanged c st) = b ∧ text t (stateChanged c st) = t := by
  unfold stateChanged
  simp only
  cases st.disable with
  | one d =>
    simp only
    split
    · simp [leds, label, text]
    · split <;> simp [leds, label, text]
  | many ds =>
    simp only
    split <;> simp [leds, label, text]

theorem step_disp {c l b t st} (h : Disp c l b t st) (o : Op) :
    Disp c (leds l (step c st o).2) (label b (step c st o).2) (text t (step c st o).2) (step c st o).1 ∧
    (step c st o).1.currentColor = some (c.color (step c st o).1.state (step c st o).1.value) ∧
    (step c st o).1.displayState = some (step c st o).1.state := by
  have tog : ∀ st', Disp c l b t st' → ∀ fb,
      Disp c (leds l (toggle c st' fb).2) (label b (toggle c st' fb).2) (text t (toggle c st' fb).2)
        (toggle c st' fb).1 ∧
      (toggle c st' fb).1.currentColor = some (c.color (toggle c st' fb).1.state (toggle c st' fb).1.value) ∧
      (toggle c st' fb).1.displayState = some (toggle c st' fb).1.state := by
    intro st' h fb
    have h1 : Disp c l b t { st' with state := !st'.state } := h.congr rfl rfl
    obtain ⟨e1, e2, e3⟩ := stateChanged_disp c { st' with state := !st'.state } l b t
    cases fb with
    | none =>
      have := updateDisplays_disp h1
      simp only [toggle, List.append_nil, leds_append, label_append, text_append, e1, e2, e3]
      exact this
    | some v =>
      have h2 : Disp c l b t { st' with state := !st'.state, value := some v } := h.congr rfl rfl
      have h3 := (updateDisplays_disp h2).1
      have := updateDisplays_disp h3
      simp only [toggle, leds_append, label_append, text_append, e1, e2, e3]
      exact this
  cases o with
  | value v => exact updateDisplays_disp (h.congr rfl rfl)
  | toggle fb => exact tog st h fb
  | shot fb => exact tog { st with state := false } (h.congr rfl rfl) fb
  | shotEnd => exact updateDisplays_disp (h.congr rfl rfl)
  | reset => exact updateDisplays_disp ⟨by simp [reset], by simp [reset], by simp [reset]⟩
  | enable v => exact updateDisplays_disp ⟨by simp [reset], by simp [reset], by simp [reset]⟩

theorem run_disp {c : Config} (h : List Op) {l b t st} (hd : Disp c l b t st) :
    Disp c (leds l (run c st h).1.flatten) (label b (run c st h).1.flatten) (text t (run c st h).1.flatten)
      (run c st h).2 := by
  induction h generalizing l b t st with
  | nil => exact hd
  | cons o h ih =>
    have := ih (step_disp hd o).1
    simp only [run, List.flatten_cons, leds_append, label_append, text_append]
    exact this

end PySwitch.Binary
