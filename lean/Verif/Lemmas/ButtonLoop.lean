import Verif.Lemmas.Button
/-
Helper lemmas for the closed loop of a foot switch with a device.
-/
namespace PySwitch.Button
open PySwitch PySwitch.Button.Spec

/-- An on/off parameter with fixed values for on and off, which are told apart by the comparison. -/
structure Proper (c : Config) (on off : Int) : Prop where
  compare : c.callback.compare ≠ .noStateChange
  enable : c.callback.enable = .one on
  mapping : c.callback.hasMappingDisable = false
  isOn : Binary.IsOn c.callback.compare c.callback.reference (some on)
  isOff : ¬ Binary.IsOn c.callback.compare c.callback.reference (some off)
  mode : c.mode ≠ .oneShot

/-- The parts of the state of the callback which do not change. -/
structure Base (off : Int) (cb : Binary.State) : Prop where
  sync : cb.currentValue = some cb.value
  disable : cb.disable = .one (.num off)
  update : cb.updateDisabled = .one false

/-- The state agrees with the value. -/
def Agree (c : Config) (cb : Binary.State) : Prop :=
  cb.state = true ↔ Binary.IsOn c.callback.compare c.callback.reference cb.value

theorem updateDisplays_state (c : Binary.Config) (st : Binary.State) :
    (Binary.updateDisplays c st).1.state = if st.currentValue = some st.value then st.state else Binary.evaluate c st.state st.value := by
  rw [(Binary.updateDisplays_fields c st).2.1]
  unfold Binary.evalPart
  by_cases h : st.currentValue = some st.value <;> simp [h, Binary.evaluateValue]

theorem updateDisplays_base {off : Int} (c : Binary.Config) (st : Binary.State) (h1 : st.disable = .one (.num off))
    (h2 : st.updateDisabled = .one false) : Base off (Binary.updateDisplays c st).1 := by
  obtain ⟨s1, s2⟩ := Binary.updateDisplays_sync c st
  refine ⟨by rw [s1, s2], ?_, ?_⟩
  · obtain ⟨v, s, d, u, cv, ds, cc⟩ := st
    simp only at h1 h2
    subst h1 h2
    have : ∀ s' v', Binary.remember ⟨v, s, .one (.num off), .one false, cv, ds, cc⟩ s' v' = .one (.num off) := by
      intro s' v'
      cases v' with
      | none => rfl
      | some x => cases s' <;> rfl
    simp only [Binary.updateDisplays]
    split <;> split <;> simp_all [Binary.evaluateValue, Binary.remember]
    all_goals
      cases v with
      | none => rfl
      | some x => cases hx : Binary.evaluate c s (some x) <;> simp
  · simp only [Binary.updateDisplays]
    split <;> split <;> simp_all [Binary.evaluateValue]

/-- A value arrives. -/
theorem step_value {c : Config} {on off : Int} (hp : Proper c on off) {cb : Binary.State} (hb : Base off cb) (v : Option Int) :
    Base off (Binary.step c.callback cb (.value v)).1 ∧ (Binary.step c.callback cb (.value v)).1.value = v ∧
    (v ≠ cb.value → Agree c (Binary.step c.callback cb (.value v)).1) ∧
    (v = cb.value → (Binary.step c.callback cb (.value v)).1.state = cb.state) ∧
    Binary.sets (Binary.step c.callback cb (.value v)).2 = [] := by
  have hv : (Binary.step c.callback cb (.value v)).1.value = v := (Binary.updateDisplays_sync c.callback _).2
  have hs : (Binary.updateDisplays c.callback { cb with value := v }).1.state =
      if cb.value = v then cb.state else Binary.evaluate c.callback cb.state v := by
    rw [updateDisplays_state]
    simp only [hb.sync, Option.some.injEq]
  refine ⟨updateDisplays_base c.callback _ hb.disable hb.update, hv, ?_, ?_, Binary.sets_updateDisplays _ _⟩
  · intro hne
    unfold Agree
    rw [hv]
    simp only [Binary.step]
    rw [hs, if_neg (fun h => hne h.symm)]
    exact Binary.evaluate_iff hp.compare _ _
  · intro he
    simp only [Binary.step]
    rw [hs, if_pos he.symm]

/-- The action is reset or enabled again. -/
theorem step_reset {c : Config} {on off : Int} (hp : Proper c on off) {cb : Binary.State} (hb : Base off cb) :
    Base off (Binary.step c.callback cb .reset).1 ∧ (Binary.step c.callback cb .reset).1.value = cb.value ∧
    Agree c (Binary.step c.callback cb .reset).1 ∧ Binary.sets (Binary.step c.callback cb .reset).2 = [] := by
  have hv : (Binary.step c.callback cb .reset).1.value = cb.value := (Binary.updateDisplays_sync c.callback _).2
  have hs := updateDisplays_state c.callback { Binary.reset cb with state := false }
  refine ⟨updateDisplays_base c.callback _ hb.disable hb.update, hv, ?_, Binary.sets_updateDisplays _ _⟩
  unfold Agree
  rw [hv]
  simp only [Binary.step]
  rw [hs]
  simp only [Binary.reset, reduceCtorEq, if_false]
  exact Binary.evaluate_iff hp.compare _ _

theorem sets_stateChanged {c : Config} {on off : Int} (hp : Proper c on off) {cb : Binary.State} (hb : Base off cb) (s : Bool) :
    Binary.stateChanged c.callback { cb with state := s } = [.set false (.one (if s then on else off)), .request] := by
  simp only [Binary.stateChanged, hb.disable, hp.mapping, Bool.and_false, hp.enable]
  cases s <;> rfl

/-- The user changes the state, without feedback. -/
theorem step_toggle {c : Config} {on off : Int} (hp : Proper c on off) {cb : Binary.State} (hb : Base off cb) :
    Base off (Binary.step c.callback cb (.toggle none)).1 ∧ (Binary.step c.callback cb (.toggle none)).1.value = cb.value ∧
    (Binary.step c.callback cb (.toggle none)).1.state = !cb.state ∧
    Binary.sets (Binary.step c.callback cb (.toggle none)).2 = [(false, .one (if !cb.state then on else off))] := by
  have hs : (Binary.updateDisplays c.callback { cb with state := !cb.state }).1.state = !cb.state := by
    rw [updateDisplays_state]
    simp only [hb.sync, if_true]
  refine ⟨?_, ?_, ?_, ?_⟩
  · exact updateDisplays_base c.callback _ hb.disable hb.update
  · exact (Binary.updateDisplays_sync c.callback _).2
  · exact hs
  · simp only [Binary.step, Binary.toggle, List.append_nil]
    rw [sets_append, Binary.sets_updateDisplays, sets_stateChanged hp hb]
    rfl

/-- The user changes the state and the value is fed back at once. -/
theorem step_toggle_fb {c : Config} {on off : Int} (hp : Proper c on off) {cb : Binary.State} (hb : Base off cb) (ha : Agree c cb) :
    let v := if !cb.state then on else off
    Base off (Binary.step c.callback cb (.toggle (some v))).1 ∧ (Binary.step c.callback cb (.toggle (some v))).1.value = some v ∧
    Agree c (Binary.step c.callback cb (.toggle (some v))).1 ∧
    Binary.sets (Binary.step c.callback cb (.toggle (some v))).2 = [(false, .one v)] := by
  intro v
  have hb1 : Base off { cb with state := !cb.state } := ⟨hb.sync, hb.disable, hb.update⟩
  obtain ⟨a1, a2, a3, a4, a5⟩ := step_value hp hb1 (some v)
  have hne : some v ≠ cb.value := by
    intro he
    have h1 := hp.isOn
    have h2 := hp.isOff
    unfold Agree at ha
    rw [← he] at ha
    cases hs : cb.state with
    | true => rw [hs] at ha; exact h2 (by simpa [v, hs] using ha)
    | false => rw [hs] at ha; exact absurd (ha.2 (by simpa [v, hs] using h1)) (by simp)
  have ha3 := a3 hne
  simp only [Binary.step] at a1 a2 ha3
  have hs2 := updateDisplays_state c.callback (Binary.updateDisplays c.callback { cb with state := !cb.state, value := some v }).1
  rw [if_pos a1.sync] at hs2
  have hv2 := (Binary.updateDisplays_sync c.callback (Binary.updateDisplays c.callback { cb with state := !cb.state, value := some v }).1).2
  refine ⟨?_, ?_, ?_, ?_⟩
  · exact updateDisplays_base c.callback _ a1.disable a1.update
  · exact hv2.trans a2
  · unfold Agree
    simp only [Binary.step, Binary.toggle]
    rw [hs2, hv2]
    exact ha3
  · simp only [Binary.step, Binary.toggle]
    rw [sets_append, sets_append, Binary.sets_updateDisplays, Binary.sets_updateDisplays, sets_stateChanged hp hb]
    rfl

theorem fedBack_eq {c : Config} {on off : Int} (hp : Proper c on off) {cb : Binary.State} (hb : Base off cb) (s : Bool) :
    fedBack c cb s = if c.feedback then some (if s then on else off) else none := by
  simp only [fedBack, sets_stateChanged hp hb]
  rfl

/-- A push or release either leaves the callback alone or changes the state. -/
theorem step_kind {c : Config} {on off : Int} (hp : Proper c on off) (st : State) (o : Op)
    (ho : (∃ t, o = .push t) ∨ (∃ t, o = .release t)) :
    ((step c st o).1.cb = st.cb ∧ (step c st o).2 = []) ∨
    ((step c st o).1.cb = (Binary.step c.callback st.cb (.toggle (fedBack c st.cb (!st.cb.state)))).1 ∧
      (step c st o).2 = (Binary.step c.callback st.cb (.toggle (fedBack c st.cb (!st.cb.state)))).2) := by
  have key : ∀ (st : State) (s : Bool), ((setState c st s).1.cb = st.cb ∧ (setState c st s).2 = []) ∨
      ((setState c st s).1.cb = (Binary.step c.callback st.cb (.toggle (fedBack c st.cb (!st.cb.state)))).1 ∧
        (setState c st s).2 = (Binary.step c.callback st.cb (.toggle (fedBack c st.cb (!st.cb.state)))).2) := by
    intro st s
    by_cases hs : s = st.cb.state
    · left; simp [setState, hs]
    · right
      have : s = !st.cb.state := by cases s <;> cases hx : st.cb.state <;> simp_all
      subst this
      simp [setState, Binary.step]
  have hmode := hp.mode
  rcases ho with ⟨t, rfl⟩ | ⟨t, rfl⟩
  · simp only [step, push]
    cases hm : c.mode <;> simp only <;> first | exact key st _ | exact .inl ⟨trivial, trivial⟩ | exact key { st with period := st.period.reset t } _ | exact absurd hm hmode
  · simp only [step, release]
    cases hm : c.mode <;> simp only <;> first | exact key st _ | exact .inl ⟨trivial, trivial⟩ | exact absurd hm hmode | skip
    split
    · exact key { st with period := (st.period.exceeded t).2 } _
    · exact .inl ⟨rfl, rfl⟩

/-! ### The world -/

/-- The values on their way to the device. -/
def setsIn (l : List Cmd) : List Int := l.filterMap (fun | .set v => some v | .ask => none)

/-- The value the device will have when it has taken all messages. -/
def eventually (w : World) : Int := ((setsIn w.toDevice).getLast?).getD w.device

/-- The single values of settings. -/
def valuesOf (es : List Binary.Eff) : List Int :=
  (Binary.sets es).filterMap (fun x => match x.2 with | .one n => some n | .many _ => none)

theorem ask_fields (c : Config) (w : World) :
    (ask c w).button = w.button ∧ (ask c w).device = w.device ∧ (ask c w).fromDevice = w.fromDevice ∧ (ask c w).shown = w.shown ∧
    setsIn (ask c w).toDevice = setsIn w.toDevice ∧
    (c.feedback = true → ask c w = w) := by
  unfold ask
  split
  · simp
  · rename_i h
    simp only [setsIn, List.filterMap_append, true_and]
    refine ⟨by simp, ?_⟩
    intro hf
    simp [hf] at h

theorem perform_fields (c : Config) (es : List Binary.Eff) (w : World) :
    (perform c w es).button = w.button ∧ (perform c w es).device = w.device ∧ (perform c w es).fromDevice = w.fromDevice ∧
    (perform c w es).shown = Binary.leds w.shown es ∧ setsIn (perform c w es).toDevice = setsIn w.toDevice ++ valuesOf es := by
  induction es generalizing w with
  | nil => simp [perform, Binary.leds, valuesOf, Binary.sets]
  | cons e es ih =>
    cases e with
    | set d v =>
      cases v with
      | one n =>
        obtain ⟨i1, i2, i3, i4, i5⟩ := ih { w with toDevice := w.toDevice ++ [.set n] }
        simp only [perform]
        refine ⟨i1, i2, i3, i4, ?_⟩
        rw [i5]
        simp [setsIn, valuesOf, Binary.sets]
      | many ns =>
        obtain ⟨i1, i2, i3, i4, i5⟩ := ih w
        simp only [perform]
        refine ⟨i1, i2, i3, i4, ?_⟩
        rw [i5]
        simp [valuesOf, Binary.sets]
    | request =>
      obtain ⟨i1, i2, i3, i4, i5⟩ := ih (ask c w)
      obtain ⟨a1, a2, a3, a4, a5, -⟩ := ask_fields c w
      simp only [perform]
      refine ⟨i1.trans a1, i2.trans a2, i3.trans a3, ?_, ?_⟩
      · rw [i4, a4]; rfl
      · rw [i5, a5]; simp [valuesOf, Binary.sets]
    | led col b =>
      obtain ⟨i1, i2, i3, i4, i5⟩ := ih { w with shown := some (col, b) }
      simp only [perform]
      refine ⟨i1, i2, i3, i4, ?_⟩
      rw [i5]; simp [valuesOf, Binary.sets]
    | label =>
      obtain ⟨i1, i2, i3, i4, i5⟩ := ih w
      simp only [perform]
      refine ⟨i1, i2, i3, i4, ?_⟩
      rw [i5]; simp [valuesOf, Binary.sets]
    | text =>
      obtain ⟨i1, i2, i3, i4, i5⟩ := ih w
      simp only [perform]
      refine ⟨i1, i2, i3, i4, ?_⟩
      rw [i5]; simp [valuesOf, Binary.sets]

theorem perform_feedback {c : Config} (hf : c.feedback = true) (es : List Binary.Eff) (w : World) :
    (perform c w es).pending = w.pending ∧ (perform c w es).toDevice = w.toDevice ++ (valuesOf es).map .set := by
  induction es generalizing w with
  | nil => simp [perform, valuesOf, Binary.sets]
  | cons e es ih =>
    cases e with
    | set d v =>
      cases v with
      | one n => simp [perform, ih, valuesOf, Binary.sets]
      | many ns => simp [perform, ih, valuesOf, Binary.sets]
    | request => simp [perform, (ask_fields c w).2.2.2.2.2 hf, ih, valuesOf, Binary.sets]
    | led col b => simp [perform, ih, valuesOf, Binary.sets]
    | label => simp [perform, ih, valuesOf, Binary.sets]
    | text => simp [perform, ih, valuesOf, Binary.sets]

/-- What the LEDs show. -/
def Shown (c : Config) (w : World) : Prop :=
  w.shown = some (c.callback.color w.button.cb.state w.button.cb.value, w.button.cb.state && c.callback.reported) ∧
  w.button.cb.currentColor = some (c.callback.color w.button.cb.state w.button.cb.value) ∧
  w.button.cb.displayState = some w.button.cb.state

theorem shown_step {c : Config} {w : World} (h : Shown c w) (o : Binary.Op) {cb' : Binary.State} {es : List Binary.Eff}
    (hcb : cb' = (Binary.step c.callback w.button.cb o).1) (hes : es = (Binary.step c.callback w.button.cb o).2) (w' : World)
    (h1 : w'.button.cb = cb') (h2 : w'.shown = Binary.leds w.shown es) : Shown c w' := by
  subst hcb hes
  have hd : Binary.Disp c.callback w.shown
      (some (c.callback.color w.button.cb.state w.button.cb.value, w.button.cb.state && c.callback.reported))
      (some (w.button.cb.state || !c.callback.reported || !c.callback.hasTextDisabled)) w.button.cb := by
    obtain ⟨s1, s2, s3⟩ := h
    refine ⟨?_, ?_, ?_⟩ <;> intro col s e1 e2 <;> rw [s2] at e1 <;> rw [s3] at e2 <;>
      simp only [Option.some.injEq] at e1 e2 <;> subst e1 e2 <;> simp [s1]
  obtain ⟨d1, d2, d3⟩ := Binary.step_disp hd o
  unfold Shown
  rw [h1, h2]
  exact ⟨d1.led _ _ d2 d3, d2, d3⟩

/-- The invariant without feedback: state and value agree, or the device will get the value of the state. -/
structure Loop (c : Config) (on off : Int) (w : World) : Prop where
  base : Base off w.button.cb
  agree : Agree c w.button.cb ∨ eventually w = if w.button.cb.state then on else off
  shown : Shown c w

theorem act_value {c : Config} {on off : Int} (hp : Proper c on off) {w : World} (h : Loop c on off w) (v : Option Int)
    (w₀ : World) (hb : w₀.button = w.button) (hd : w₀.device = w.device) (ht : w₀.toDevice = w.toDevice) (hs : w₀.shown = w.shown) :
    Loop c on off (act c w₀ (.value v)) ∧ (act c w₀ (.value v)).button.cb.value = v ∧
    (act c w₀ (.value v)).device = w.device ∧
    (v = w.button.cb.value → (act c w₀ (.value v)).button.cb.state = w.button.cb.state) ∧
    (v ≠ w.button.cb.value → Agree c (act c w₀ (.value v)).button.cb) := by
  obtain ⟨s1, s2, s3, s4, s5⟩ := step_value hp h.base v
  obtain ⟨p1, p2, p3, p4, p5⟩ := perform_fields c (step c w₀.button (.value v)).2 { w₀ with button := (step c w₀.button (.value v)).1 }
  have hcb : (act c w₀ (.value v)).button.cb = (Binary.step c.callback w.button.cb (.value v)).1 := by
    simp only [act]; rw [p1]; simp [step, hb]
  have hdev : (act c w₀ (.value v)).device = w.device := by simp only [act]; rw [p2]; exact hd
  have hev : eventually (act c w₀ (.value v)) = eventually w := by
    simp only [eventually, act]
    rw [p5, p2]
    have : valuesOf (step c w₀.button (.value v)).2 = [] := by
      simp only [valuesOf, step, hb]; rw [s5]; rfl
    simp [this, ht, hd]
  refine ⟨⟨by rw [hcb]; exact s1, ?_, ?_⟩, by rw [hcb]; exact s2, hdev, by rw [hcb]; exact s4, by rw [hcb]; exact s3⟩
  · rw [hcb, hev]
    by_cases hv : v = w.button.cb.value
    · rw [s4 hv]
      rcases h.agree with ha | he
      · left
        unfold Agree at ha ⊢
        rw [s4 hv, s2, hv]
        exact ha
      · exact .inr he
    · exact .inl (s3 hv)
  · refine shown_step h.shown (.value v) (cb' := (act c w₀ (.value v)).button.cb) hcb (es := (step c w₀.button (.value v)).2)
      (by simp [step, hb]) _ rfl ?_
    simp only [act]; rw [p4]; simp only [hs]

theorem act_reset {c : Config} {on off : Int} (hp : Proper c on off) {w : World} (h : Loop c on off w) :
    Loop c on off (act c w .reset) := by
  obtain ⟨s1, s2, s3, s4⟩ := step_reset hp h.base
  obtain ⟨p1, p2, p3, p4, p5⟩ := perform_fields c (step c w.button .reset).2 { w with button := (step c w.button .reset).1 }
  have hcb : (act c w .reset).button.cb = (Binary.step c.callback w.button.cb .reset).1 := by
    simp only [act]; rw [p1]; simp [step]
  refine ⟨by rw [hcb]; exact s1, .inl (by rw [hcb]; exact s3), ?_⟩
  refine shown_step h.shown .reset (cb' := (act c w .reset).button.cb) hcb (es := (step c w.button .reset).2) rfl _ rfl ?_
  simp only [act]; rw [p4]

theorem act_user {c : Config} {on off : Int} (hp : Proper c on off) (hf : c.feedback = false) {w : World} (h : Loop c on off w) (o : Op)
    (ho : (∃ t, o = .push t) ∨ (∃ t, o = .release t)) : Loop c on off (act c w o) := by
  obtain ⟨p1, p2, p3, p4, p5⟩ := perform_fields c (step c w.button o).2 { w with button := (step c w.button o).1 }
  rcases step_kind hp w.button o ho with ⟨k1, k2⟩ | ⟨k1, k2⟩
  · have he : act c w o = { w with button := (step c w.button o).1 } := by simp only [act]; rw [k2]; rfl
    rw [he]
    refine ⟨by simp only [k1]; exact h.base, ?_, ?_⟩
    · have := h.agree
      simpa only [Agree, eventually, k1] using this
    · have := h.shown
      simpa only [Shown, k1] using this
  · rw [fedBack_eq hp h.base, hf] at k1 k2
    simp only [Bool.false_eq_true, if_false] at k1 k2
    obtain ⟨s1, s2, s3, s4⟩ := step_toggle hp h.base
    have hcb : (act c w o).button.cb = (Binary.step c.callback w.button.cb (.toggle none)).1 := by
      simp only [act]; rw [p1]; exact k1
    refine ⟨by rw [hcb]; exact s1, .inr ?_, ?_⟩
    · rw [hcb, s3]
      simp only [eventually, act]
      rw [p5, k2]
      simp only [valuesOf, s4]
      cases hs : w.button.cb.state <;> simp
    · refine shown_step h.shown (.toggle none) (cb' := (act c w o).button.cb) hcb (es := (step c w.button o).2) k2 _ rfl ?_
      simp only [act]; rw [p4]

theorem happen_loop {c : Config} {on off : Int} (hp : Proper c on off) (hf : c.feedback = false) {w : World} (h : Loop c on off w)
    (e : Ev) (he : ∀ v, e ≠ .knob v) : Loop c on off (happen c w e) := by
  cases e with
  | push t => exact act_user hp hf h _ (.inl ⟨t, rfl⟩)
  | release t => exact act_user hp hf h _ (.inr ⟨t, rfl⟩)
  | update =>
    obtain ⟨a1, a2, a3, a4, a5, -⟩ := ask_fields c w
    refine ⟨by simp only [happen]; rw [a1]; exact h.base, ?_, ?_⟩
    · show Agree c (ask c w).button.cb ∨ ((setsIn (ask c w).toDevice).getLast?).getD (ask c w).device = if (ask c w).button.cb.state then on else off
      rw [a1, a5, a2]; exact h.agree
    · simp only [happen, Shown]; rw [a1, a4]; exact h.shown
  | device =>
    simp only [happen]
    split
    · exact h
    · rename_i v rest heq
      refine ⟨h.base, ?_, h.shown⟩
      rcases h.agree with ha | ha
      · exact .inl ha
      · right
        have : eventually w = ((setsIn rest).getLast?).getD v := by
          simp only [eventually, heq, setsIn, List.filterMap_cons]
          cases hl : (List.filterMap _ rest) with
          | nil => rfl
          | cons a l => simp [List.getLast?_cons_cons]; grind
        rw [this] at ha
        exact ha
    · rename_i rest heq
      refine ⟨h.base, ?_, h.shown⟩
      have : eventually w = ((setsIn rest).getLast?).getD w.device := by
        simp only [eventually, heq, setsIn, List.filterMap_cons]
      have ha := h.agree
      rw [this] at ha
      exact ha
  | deliver =>
    simp only [happen]
    split
    · exact h
    · rename_i v rest heq
      split
      · exact (act_value hp h (some v) { w with fromDevice := rest, pending := false } rfl rfl rfl rfl).1
      · exact ⟨h.base, h.agree, h.shown⟩
  | timeout =>
    simp only [happen]
    split
    · exact (act_value hp h none { w with pending := false } rfl rfl rfl rfl).1
    · exact h
  | knob v => exact absurd rfl (he v)
  | reset => exact act_reset hp h

theorem start_loop {c : Config} {on off : Int} (hp : Proper c on off) (holdTime d : Int) :
    Loop c on off (start c holdTime (.one (.num off)) d) := by
  have hb : Base off (start c holdTime (.one (.num off)) d).button.cb :=
    updateDisplays_base c.callback _ rfl rfl
  have hs := updateDisplays_state c.callback (Binary.initial (.one (.num off)))
  have hv := (Binary.updateDisplays_sync c.callback (Binary.initial (.one (.num off)))).2
  refine ⟨hb, .inl ?_, ?_⟩
  · unfold Agree
    simp only [start, Button.initial]
    rw [hs, hv]
    simp only [Binary.initial, reduceCtorEq, if_false]
    exact Binary.evaluate_iff hp.compare _ _
  · have hd : Binary.Disp c.callback none none none (Binary.initial (.one (.num off))) :=
      ⟨by simp [Binary.initial], by simp [Binary.initial], by simp [Binary.initial]⟩
    obtain ⟨d1, d2, d3⟩ := Binary.updateDisplays_disp hd
    have hl : ∀ s es, ledsAfter s es = Binary.leds s es := by
      intro s es
      induction es generalizing s with
      | nil => rfl
      | cons e es ih => cases e <;> simp [ledsAfter, Binary.leds, ih]
    refine ⟨?_, d2, d3⟩
    simp only [start, hl]
    exact d1.led _ _ d2 d3

theorem history_loop {c : Config} {on off : Int} (hp : Proper c on off) (hf : c.feedback = false) (es : List Ev) (hk : NoKnob es)
    {w : World} (h : Loop c on off w) : Loop c on off (history c w es) := by
  induction es generalizing w with
  | nil => exact h
  | cons e es ih => exact ih (fun x hx => hk x (by simp [hx])) (happen_loop hp hf h e (hk e (by simp)))

/-! ### Everything on its way arrives -/

/-- Effects at the displays only. -/
def Local (es : List Binary.Eff) : Prop := ∀ e ∈ es, ¬ (∃ d v, e = .set d v) ∧ e ≠ .request

theorem perform_local (c : Config) (es : List Binary.Eff) (hl : Local es) (w : World) :
    (perform c w es).toDevice = w.toDevice ∧ (perform c w es).pending = w.pending := by
  induction es generalizing w with
  | nil => exact ⟨rfl, rfl⟩
  | cons e es ih =>
    have h1 := hl e (by simp)
    have h2 : Local es := fun x hx => hl x (by simp [hx])
    cases e with
    | set d v => exact absurd ⟨d, v, rfl⟩ h1.1
    | request => exact absurd rfl h1.2
    | led col b => exact ih h2 _
    | label => exact ih h2 _
    | text => exact ih h2 _

theorem updateDisplays_local (c : Binary.Config) (st : Binary.State) : Local (Binary.updateDisplays c st).2 := by
  simp only [Binary.updateDisplays]
  split
  · split
    · intro e he
      simp only [Binary.display, List.mem_append, List.mem_cons, List.not_mem_nil, or_false] at he
      grind
    · intro e he; simp at he
  · split
    · intro e he
      simp only [Binary.display, List.mem_append, List.mem_cons, List.not_mem_nil, or_false] at he
      grind
    · intro e he; simp at he

/-- A value which arrives sends nothing. -/
theorem act_value_quiet (c : Config) (w : World) (v : Option Int) :
    (act c w (.value v)).toDevice = w.toDevice ∧ (act c w (.value v)).pending = w.pending ∧
    (act c w (.value v)).fromDevice = w.fromDevice ∧ (act c w (.value v)).device = w.device := by
  obtain ⟨q1, q2⟩ := perform_local c (step c w.button (.value v)).2 (updateDisplays_local _ _) { w with button := (step c w.button (.value v)).1 }
  obtain ⟨-, p2, p3, -, -⟩ := perform_fields c (step c w.button (.value v)).2 { w with button := (step c w.button (.value v)).1 }
  exact ⟨q1, q2, p3, p2⟩

theorem history_append (c : Config) (w : World) (a b : List Ev) : history c w (a ++ b) = history c (history c w a) b := by
  induction a generalizing w with
  | nil => rfl
  | cons e a ih => exact ih _

/-- A pending request is on its way, or its answer is. -/
def Waiting (w : World) : Prop := w.pending = true → .ask ∈ w.toDevice ∨ w.fromDevice ≠ []

theorem ask_waiting (c : Config) {w : World} (h : Waiting w) : Waiting (ask c w) := by
  unfold ask
  split
  · exact h
  · intro _; left; simp

theorem perform_waiting (c : Config) (es : List Binary.Eff) {w : World} (h : Waiting w) : Waiting (perform c w es) := by
  induction es generalizing w with
  | nil => exact h
  | cons e es ih =>
    cases e with
    | set d v =>
      cases v with
      | one n => exact ih (w := { w with toDevice := w.toDevice ++ [.set n] }) (fun hp => (h hp).imp (fun hx => by simp [hx]) id)
      | many ns => exact ih h
    | request => exact ih (ask_waiting c h)
    | led col b => exact ih (w := { w with shown := some (col, b) }) h
    | label => exact ih h
    | text => exact ih h

theorem happen_waiting (c : Config) {w : World} (h : Waiting w) (e : Ev) : Waiting (happen c w e) := by
  cases e with
  | push t => exact perform_waiting c _ (w := { w with button := _ }) h
  | release t => exact perform_waiting c _ (w := { w with button := _ }) h
  | reset => exact perform_waiting c _ (w := { w with button := _ }) h
  | update => exact ask_waiting c h
  | device =>
    simp only [happen]
    split
    · exact h
    · rename_i v rest heq
      intro hp
      rcases h hp with hx | hx
      · left; rw [heq] at hx; simpa using hx
      · exact .inr hx
    · intro hp; right; simp
  | deliver =>
    simp only [happen]
    split
    · exact h
    · rename_i v rest heq
      split
      · intro hp
        rw [(act_value_quiet c _ _).2.1] at hp
        simp at hp
      · rename_i hn
        intro hp
        simp [show w.pending = true from hp] at hn
  | timeout =>
    simp only [happen]
    split
    · intro hp
      rw [(act_value_quiet c _ _).2.1] at hp
      simp at hp
    · exact h
  | knob v =>
    intro hp
    rcases h hp with hx | hx
    · exact .inl hx
    · right
      simp only [happen]
      split
      · simp
      · exact hx

theorem history_waiting (c : Config) (es : List Ev) {w : World} (h : Waiting w) : Waiting (history c w es) := by
  induction es generalizing w with
  | nil => exact h
  | cons e es ih => exact ih (happen_waiting c h e)

theorem start_waiting (c : Config) (holdTime : Int) (disable) (d : Int) : Waiting (start c holdTime disable d) := by
  intro hp
  simp [start] at hp

theorem drain_device (c : Config) (n : Nat) (w : World) (hn : w.toDevice.length ≤ n) :
    (history c w (List.replicate n .device)).toDevice = [] ∧
    (history c w (List.replicate n .device)).fromDevice.length ≤ w.fromDevice.length + w.toDevice.length := by
  induction n generalizing w with
  | zero =>
    have : w.toDevice = [] := List.length_eq_zero_iff.1 (by omega)
    simp [history, this]
  | succ n ih =>
    simp only [List.replicate_succ, history]
    cases ht : w.toDevice with
    | nil =>
      have : happen c w .device = w := by simp only [happen, ht]
      rw [this]
      have := ih w (by simp [ht])
      rw [ht] at this
      exact this
    | cons x rest =>
      rw [ht] at hn
      cases x with
      | set v =>
        have he : happen c w .device = { w with toDevice := rest, device := v } := by simp only [happen, ht]
        rw [he]
        have := ih { w with toDevice := rest, device := v } (by simp at hn ⊢; omega)
        refine ⟨this.1, Nat.le_trans this.2 ?_⟩
        simp
      | ask =>
        have he : happen c w .device = { w with toDevice := rest, fromDevice := w.fromDevice ++ [w.device] } := by simp only [happen, ht]
        rw [he]
        have := ih { w with toDevice := rest, fromDevice := w.fromDevice ++ [w.device] } (by simp at hn ⊢; omega)
        refine ⟨this.1, Nat.le_trans this.2 ?_⟩
        simp
        omega

theorem drain_deliver (c : Config) (m : Nat) (w : World) (ht : w.toDevice = []) (hm : w.fromDevice.length ≤ m) :
    (history c w (List.replicate m .deliver)).toDevice = [] ∧ (history c w (List.replicate m .deliver)).fromDevice = [] := by
  induction m generalizing w with
  | zero => exact ⟨ht, List.length_eq_zero_iff.1 (Nat.le_zero.1 hm)⟩
  | succ m ih =>
    simp only [List.replicate_succ, history]
    cases hf : w.fromDevice with
    | nil =>
      have : happen c w .deliver = w := by simp only [happen, hf]
      rw [this]
      exact ih w ht (by simp [hf])
    | cons v rest =>
      rw [hf] at hm
      simp only [List.length_cons] at hm
      have h : (happen c w .deliver).toDevice = [] ∧ (happen c w .deliver).fromDevice = rest := by
        simp only [happen, hf]
        split
        · obtain ⟨q1, -, q3, -⟩ := act_value_quiet c { w with fromDevice := rest, pending := false } (some v)
          exact ⟨q1.trans ht, q3⟩
        · exact ⟨ht, rfl⟩
      exact ih _ h.1 (by rw [h.2]; omega)

/-- When everything has arrived, nobody waits. -/
theorem drain_quiet (c : Config) {w : World} (hw : Waiting w) (n m : Nat) (hn : w.toDevice.length ≤ n)
    (hm : w.toDevice.length + w.fromDevice.length ≤ m) :
    Quiet (history c w (List.replicate n .device ++ List.replicate m .deliver)) := by
  rw [history_append]
  obtain ⟨d1, d2⟩ := drain_device c n w hn
  obtain ⟨e1, e2⟩ := drain_deliver c m _ d1 (by omega)
  refine ⟨e1, e2, ?_⟩
  have := history_waiting c (List.replicate m .deliver) (history_waiting c (List.replicate n .device) hw)
  cases hp : (history c (history c w (List.replicate n .device)) (List.replicate m .deliver)).pending with
  | false => rfl
  | true =>
    rcases this hp with h | h
    · rw [e1] at h; simp at h
    · exact absurd e2 h

/-- The answer to a request in a quiet moment. -/
theorem round_loop {c : Config} {on off : Int} (hp : Proper c on off) (hf : c.feedback = false) {w : World} (h : Loop c on off w)
    (hq : Quiet w) :
    let w' := history c w [.update, .device, .deliver]
    Loop c on off w' ∧ w'.button.cb.value = some w'.device ∧ w'.device = w.device ∧ Agree c w'.button.cb ∧ Quiet w' := by
  intro w'
  obtain ⟨q1, q2, q3⟩ := hq
  have he : w' = act c { w with toDevice := [], fromDevice := [], pending := false } (.value (some w.device)) := by
    simp only [w', history, happen, ask, hf, q1, q2, q3]
    simp
  obtain ⟨a1, a2, a3, a4, a5⟩ := act_value hp h (some w.device) { w with toDevice := [], fromDevice := [], pending := false } rfl rfl q1.symm rfl
  obtain ⟨b1, b2, b3, b4⟩ := act_value_quiet c { w with toDevice := [], fromDevice := [], pending := false } (some w.device)
  rw [he]
  refine ⟨a1, by rw [a3]; exact a2, a3, ?_, b1, b3, b2⟩
  by_cases hv : some w.device = w.button.cb.value
  · unfold Agree
    rw [a2, a4 hv]
    rcases h.agree with ha | ha
    · unfold Agree at ha
      rw [hv]; exact ha
    · simp only [eventually, q1, setsIn, List.filterMap_nil, List.getLast?_nil, Option.getD_none] at ha
      rw [ha]
      cases hs : w.button.cb.state with
      | true => simpa using hp.isOn
      | false => simpa using hp.isOff
  · exact a5 hv

/-! ### With feedback -/

structure Fed (c : Config) (off : Int) (w : World) : Prop where
  base : Base off w.button.cb
  agree : Agree c w.button.cb
  shown : Shown c w
  pending : w.pending = false
  noAsk : ∀ x ∈ w.toDevice, x ≠ .ask
  one : w.toDevice = [] ∨ w.fromDevice = []
  known : w.fromDevice = [] → w.button.cb.value = some (eventually w)
  reported : w.toDevice = [] → ∀ v, w.fromDevice.getLast? = some v → v = w.device

theorem fed_user {c : Config} {on off : Int} (hp : Proper c on off) (hf : c.feedback = true) {w : World} (h : Fed c off w) (o : Op)
    (ho : (∃ t, o = .push t) ∨ (∃ t, o = .release t)) (hfrom : w.fromDevice = []) : Fed c off (act c w o) := by
  obtain ⟨p1, p2, p3, p4, p5⟩ := perform_fields c (step c w.button o).2 { w with button := (step c w.button o).1 }
  obtain ⟨f1, f2⟩ := perform_feedback hf (step c w.button o).2 { w with button := (step c w.button o).1 }
  rcases step_kind hp w.button o ho with ⟨k1, k2⟩ | ⟨k1, k2⟩
  · have he : act c w o = { w with button := (step c w.button o).1 } := by simp only [act]; rw [k2]; rfl
    rw [he]
    obtain ⟨h1, h2, h3, h4, h5, h6, h7, h8⟩ := h
    exact ⟨by simpa only [k1] using h1, by simpa only [k1] using h2, by simpa only [Shown, k1] using h3, h4, h5, h6,
      fun hx => (congrArg Binary.State.value k1).trans (h7 hx), h8⟩
  · rw [fedBack_eq hp h.base, hf] at k1 k2
    simp only [if_true] at k1 k2
    obtain ⟨s1, s2, s3, s4⟩ := step_toggle_fb hp h.base h.agree
    generalize hv : (if !w.button.cb.state then on else off) = v at *
    have hcb : (act c w o).button.cb = (Binary.step c.callback w.button.cb (.toggle (some v))).1 := by
      simp only [act]; rw [p1]; exact k1
    have hvals : valuesOf (step c w.button o).2 = [v] := by rw [k2]; simp only [valuesOf, s4]; rfl
    have hto : (act c w o).toDevice = w.toDevice ++ [.set v] := by
      simp only [act]; rw [f2, hvals]; rfl
    refine ⟨by rw [hcb]; exact s1, by rw [hcb]; exact s3, ?_, ?_, ?_, ?_, ?_, ?_⟩
    · refine shown_step h.shown (.toggle (some v)) (cb' := (act c w o).button.cb) hcb (es := (step c w.button o).2) k2 _ rfl ?_
      simp only [act]; rw [p4]
    · simp only [act]; rw [f1]; exact h.pending
    · intro x hx
      rw [hto] at hx
      simp only [List.mem_append, List.mem_cons, List.not_mem_nil, or_false] at hx
      rcases hx with hx | rfl
      · exact h.noAsk x hx
      · simp
    · right; simp only [act]; rw [p3]; exact hfrom
    · intro _
      rw [hcb, s2]
      simp [eventually, hto, setsIn]
    · intro hx
      rw [hto] at hx
      simp at hx

theorem fed_value {c : Config} {on off : Int} (hp : Proper c on off) {w : World} (h : Fed c off w) (v : Int) (rest : List Int)
    (hfrom : w.fromDevice = v :: rest) :
    Fed c off (act c { w with fromDevice := rest, pending := false } (.value (some v))) := by
  have hto : w.toDevice = [] := by
    rcases h.one with hx | hx
    · exact hx
    · rw [hfrom] at hx; simp at hx
  have hloop : Loop c on off w := ⟨h.base, .inl h.agree, h.shown⟩
  obtain ⟨a1, a2, a3, a4, a5⟩ := act_value hp hloop (some v) { w with fromDevice := rest, pending := false } rfl rfl rfl rfl
  obtain ⟨b1, b2, b3, b4⟩ := act_value_quiet c { w with fromDevice := rest, pending := false } (some v)
  refine ⟨a1.base, ?_, a1.shown, b2, ?_, .inl (b1.trans hto), ?_, ?_⟩
  · by_cases hv : some v = w.button.cb.value
    · have ha := h.agree
      unfold Agree at ha ⊢
      rw [a2, a4 hv, hv]
      exact ha
    · exact a5 hv
  · intro x hx
    rw [b1] at hx
    exact h.noAsk x hx
  · intro hx
    rw [b3] at hx
    simp only at hx
    rw [a2]
    have := h.reported hto v (by rw [hfrom, hx]; rfl)
    unfold eventually
    rw [b1, b4]
    simp [hto, setsIn, this]
  · intro _ u hu
    rw [b3] at hu
    simp only at hu
    rw [b4]
    refine h.reported hto u ?_
    rw [hfrom]
    cases rest with
    | nil => simp at hu
    | cons a l => rw [List.getLast?_cons_cons]; exact hu

theorem happen_fed {c : Config} {on off : Int} (hp : Proper c on off) (hf : c.feedback = true) {w : World} (h : Fed c off w) (e : Ev)
    (hk : ∀ v, e = .knob v → w.toDevice = []) (h1 : ∀ t, e = .push t → w.fromDevice = []) (h2 : ∀ t, e = .release t → w.fromDevice = []) :
    Fed c off (happen c w e) := by
  cases e with
  | push t => exact fed_user hp hf h _ (.inl ⟨t, rfl⟩) (h1 t rfl)
  | release t => exact fed_user hp hf h _ (.inr ⟨t, rfl⟩) (h2 t rfl)
  | update =>
    have : happen c w .update = w := (ask_fields c w).2.2.2.2.2 hf
    rw [this]; exact h
  | device =>
    cases ht : w.toDevice with
    | nil =>
      have : happen c w .device = w := by simp only [happen, ht]
      rw [this]; exact h
    | cons x rest =>
      have hfrom : w.fromDevice = [] := by
        rcases h.one with hx | hx
        · rw [ht] at hx; simp at hx
        · exact hx
      cases x with
      | ask => exact absurd rfl (h.noAsk .ask (by simp [ht]))
      | set v =>
        have he : happen c w .device = { w with toDevice := rest, device := v } := by simp only [happen, ht]
        rw [he]
        refine ⟨h.base, h.agree, h.shown, h.pending, fun x hx => h.noAsk x (by simp [ht, hx]), .inr hfrom, ?_, ?_⟩
        · intro _
          have := h.known hfrom
          rw [this]
          simp only [eventually, ht, setsIn, List.filterMap_cons]
          cases hl : (List.filterMap _ rest) with
          | nil => rfl
          | cons a l => simp [List.getLast?_cons_cons]; grind
        · intro _ u hu
          simp [hfrom] at hu
  | deliver =>
    cases ht : w.fromDevice with
    | nil =>
      have : happen c w .deliver = w := by simp only [happen, ht]
      rw [this]; exact h
    | cons v rest =>
      have he : happen c w .deliver = act c { w with fromDevice := rest, pending := false } (.value (some v)) := by
        simp [happen, ht, hf]
      rw [he]
      exact fed_value hp h v rest ht
  | timeout =>
    have : happen c w .timeout = w := by simp [happen, h.pending]
    rw [this]; exact h
  | knob v =>
    have ht := hk v rfl
    have he : happen c w (.knob v) = { w with device := v, fromDevice := w.fromDevice ++ [v] } := by simp [happen, hf]
    rw [he]
    refine ⟨h.base, h.agree, h.shown, h.pending, h.noAsk, .inl ht, ?_, ?_⟩
    · intro hx; simp at hx
    · intro _ u hu
      simpa using hu.symm
  | reset =>
    obtain ⟨p1, p2, p3, p4, p5⟩ := perform_fields c (step c w.button .reset).2 { w with button := (step c w.button .reset).1 }
    obtain ⟨f1, f2⟩ := perform_feedback hf (step c w.button .reset).2 { w with button := (step c w.button .reset).1 }
    obtain ⟨s1, s2, s3, s4⟩ := step_reset hp h.base
    have hcb : (act c w .reset).button.cb = (Binary.step c.callback w.button.cb .reset).1 := by
      simp only [act]; rw [p1]; simp [step]
    have hvals : valuesOf (step c w.button .reset).2 = [] := by simp only [valuesOf, step]; rw [s4]; rfl
    have hto : (act c w .reset).toDevice = w.toDevice := by
      simp only [act]; rw [f2, hvals]; simp
    have hfr : (act c w .reset).fromDevice = w.fromDevice := by simp only [act]; rw [p3]
    have hdev : (act c w .reset).device = w.device := by simp only [act]; rw [p2]
    refine ⟨by simp only [happen]; rw [hcb]; exact s1, by simp only [happen]; rw [hcb]; exact s3, ?_, ?_, ?_, ?_, ?_, ?_⟩
    · refine shown_step h.shown .reset (cb' := (act c w .reset).button.cb) hcb (es := (step c w.button .reset).2) rfl _ rfl ?_
      simp only [happen, act]; rw [p4]
    · simp only [happen, act]; rw [f1]; exact h.pending
    · simp only [happen]; rw [hto]; exact h.noAsk
    · simp only [happen]; rw [hto, hfr]; exact h.one
    · simp only [happen]
      rw [hfr, hcb, s2]
      simp only [eventually, hto, hdev]
      exact h.known
    · simp only [happen]; rw [hto, hfr, hdev]; exact h.reported

theorem history_fed {c : Config} {on off : Int} (hp : Proper c on off) (hf : c.feedback = true) (es : List Ev) {w : World}
    (hn : NoCrossing c w es) (h : Fed c off w) : Fed c off (history c w es) := by
  induction es generalizing w with
  | nil => exact h
  | cons e es ih =>
    obtain ⟨h1, h2⟩ := hn
    refine ih h2 (happen_fed hp hf h e ?_ ?_ ?_) <;> intro x hx <;> subst hx <;> exact h1

theorem start_fed {c : Config} {on off : Int} (hp : Proper c on off) (hf : c.feedback = true) (holdTime d : Int) :
    Fed c off (start c holdTime (.one (.num off)) d) := by
  have hl := start_loop hp holdTime d
  have hs := updateDisplays_state c.callback (Binary.initial (.one (.num off)))
  have hv := (Binary.updateDisplays_sync c.callback (Binary.initial (.one (.num off)))).2
  refine ⟨hl.base, ?_, hl.shown, rfl, by simp [start], .inl rfl, by simp [start, hf], by simp [start, hf]⟩
  unfold Agree
  simp only [start, Button.initial]
  rw [hs, hv]
  simp only [Binary.initial, reduceCtorEq, if_false]
  exact Binary.evaluate_iff hp.compare _ _

end PySwitch.Button
