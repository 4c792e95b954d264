import Verif.Spec.Shipped
import Verif.Lemmas.Binary
import Verif.Lemmas.Button
import Verif.Lemmas.Switch
/-
Helper lemmas for the shipped configuration.
-/
namespace PySwitch.Shipped
open PySwitch PySwitch.Wire PySwitch.Shipped.Spec

/-! ### Effects of the callbacks -/

theorem msgs_append (p : Table.Param) (a b : List Binary.Eff) : msgs p (a ++ b) = msgs p a ++ msgs p b := by
  induction a with
  | nil => rfl
  | cons e a ih =>
    cases e with
    | set d v => cases v <;> simp [msgs, ih]
    | _ => simp [msgs, ih]

theorem bases_append (a b : List Effects.Eff) : bases (a ++ b) = bases a ++ bases b := by
  induction a with
  | nil => rfl
  | cons e a ih => cases e <;> simp [bases, ih]

theorem bases_map (a : List Binary.Eff) : bases (a.map .base) = a := by
  induction a with
  | nil => rfl
  | cons e a ih => simp [bases, ih]

theorem bases_texts (o : Option String) : bases (o.map Effects.Eff.text).toList = [] := by cases o <;> rfl

theorem ledOf_append (s : Option Bool) (a b : List Binary.Eff) : ledOf s (a ++ b) = ledOf (ledOf s a) b := by
  induction a generalizing s with
  | nil => rfl
  | cons e a ih => cases e <;> simp [ledOf, ih]

/-- Drawing a state. -/
theorem display_msgs (c : Binary.Config) (p : Table.Param) (s : Bool) (k : Nat) : msgs p (Binary.display c s k) = [] := by
  unfold Binary.display
  cases c.hasLabel <;> cases c.hasText <;> simp [msgs]

theorem display_led (c : Binary.Config) (hr : c.reported = true) (l : Option Bool) (s : Bool) (k : Nat) :
    ledOf l (Binary.display c s k) = some s := by
  unfold Binary.display
  cases c.hasLabel <;> cases c.hasText <;> simp [ledOf, hr]

theorem firstSet_display (c : Binary.Config) (s : Bool) (k : Nat) : Button.firstSet (Binary.display c s k) = none := by
  unfold Binary.display
  cases c.hasLabel <;> cases c.hasText <;> simp [Button.firstSet]

theorem firstSet_append (a b : List Binary.Eff) :
    Button.firstSet (a ++ b) = match Button.firstSet a with | some v => some v | none => Button.firstSet b := by
  induction a with
  | nil => rfl
  | cons e a ih =>
    cases e with
    | set d v => cases v <;> simp [Button.firstSet, ih]
    | _ => simp [Button.firstSet, ih]

/-- What drawing does: nothing is sent, the value is kept, and the LEDs show the state. -/
structure Drawn (c : Binary.Config) (st : Binary.State) (r : Binary.State × List Binary.Eff) : Prop where
  msgs : ∀ p, msgs p r.2 = []
  first : Button.firstSet r.2 = none
  value : r.1.value = st.value
  current : r.1.currentValue = some st.value
  shown : r.1.displayState = some r.1.state
  led : c.reported = true → ∀ l, st.displayState = none ∨ st.displayState = l → ledOf l r.2 = some r.1.state
  disable : st.disable = .one (.num 0) → st.updateDisabled = .one false → r.1.disable = .one (.num 0) ∧ r.1.updateDisabled = .one false
  same : st.currentValue = some st.value → r.1.state = st.state
  eval : st.currentValue ≠ some st.value → r.1.state = Binary.evaluate c st.state st.value

theorem drawn (c : Binary.Config) (st : Binary.State) : Drawn c st (Binary.updateDisplays c st) := by
  obtain ⟨v, s, d, u, cv, ds, cc⟩ := st
  by_cases h : cv = some v
  · subst h
    simp only [Binary.updateDisplays, ne_eq, not_true_eq_false, if_false]
    split
    · refine ⟨fun p => display_msgs .., firstSet_display .., rfl, rfl, rfl, fun hr l _ => display_led c hr l _ _,
        fun a b => ⟨a, b⟩, fun _ => rfl, fun a => absurd rfl a⟩
    · rename_i h'
      simp at h'
      exact ⟨fun p => rfl, rfl, rfl, rfl, h'.2, fun _ l hl => by rcases hl with hl | hl <;> simp_all [ledOf],
        fun a b => ⟨a, b⟩, fun _ => rfl, fun a => absurd rfl a⟩
  · simp only [Binary.updateDisplays, ne_eq, h, not_false_eq_true, if_true, Binary.evaluateValue]
    have hd : d = .one (.num 0) → u = .one false → Binary.remember ⟨v, s, d, u, some v, ds, cc⟩ (Binary.evaluate c s v) v = .one (.num 0) := by
      intro a b; subst a b; cases v <;> simp [Binary.remember]
    split
    · refine ⟨fun p => display_msgs .., firstSet_display .., rfl, rfl, rfl, fun hr l _ => display_led c hr l _ _,
        fun a b => ⟨hd a b, b⟩, fun a => absurd a h, fun _ => rfl⟩
    · rename_i h'
      simp at h'
      exact ⟨fun p => rfl, rfl, rfl, rfl, h'.2, fun _ l hl => by rcases hl with hl | hl <;> simp_all [ledOf],
        fun a b => ⟨hd a b, b⟩, fun a => absurd a h, fun _ => rfl⟩

/-! ### Effect slots -/

theorem effect_msg {slot : Nat} (h : slot < 4) (s : Bool) : msg (Table.effectState slot) (if s then 1 else 0) = [effect slot s] := by
  rcases slot with _ | _ | _ | _ | slot <;> first | omega | (cases s <;> rfl)

/-- The callback of an effect slot: the value for "off" is 0, and the LEDs show the state. -/
structure CbOk (lit : Option Bool) (cb : Effects.State) : Prop where
  disable : cb.base.disable = .one (.num 0)
  upd : cb.base.updateDisabled = .one false
  shown : cb.base.displayState = none ∨ cb.base.displayState = lit

/-- After drawing. -/
structure CbDrawn (cb : Effects.State) (r : Effects.State × List Effects.Eff) : Prop where
  msgs : ∀ p, msgs p (bases r.2) = []
  value : r.1.base.value = cb.base.value
  fxtype : r.1.fxtype = cb.fxtype
  shown : r.1.base.displayState = some r.1.base.state
  led : ∀ l, CbOk l cb → CbOk (ledOf l (bases r.2)) r.1 ∧ ledOf l (bases r.2) = some r.1.base.state
  current : r.1.base.currentValue = some cb.base.value
  same : Effects.categoryOf cb.fxtype ≠ 0 → cb.base.currentValue = some cb.base.value → r.1.base.state = cb.base.state
  eval : Effects.categoryOf cb.fxtype ≠ 0 → cb.base.currentValue ≠ some cb.base.value →
    r.1.base.state = (match cb.base.value with | some v => decide (v ≥ 1) | none => false)

theorem cbDrawn (cb : Effects.State) : CbDrawn cb (Effects.updateDisplays fxConfig cb) := by
  have hr : ∀ k, (Effects.baseConfig fxConfig k).reported = true := fun _ => rfl
  have key : ∀ b, (b = if Effects.categoryOf cb.fxtype = Effects.CATEGORY_NONE then { cb.base with state := false } else cb.base) →
      b.value = cb.base.value ∧ b.disable = cb.base.disable ∧ b.updateDisabled = cb.base.updateDisabled ∧
      b.displayState = cb.base.displayState ∧ b.currentValue = cb.base.currentValue ∧
      (Effects.categoryOf cb.fxtype ≠ 0 → b.state = cb.base.state) := by
    intro b hb
    subst hb
    split
    · rename_i h; exact ⟨rfl, rfl, rfl, rfl, rfl, fun h' => absurd h h'⟩
    · exact ⟨rfl, rfl, rfl, rfl, rfl, fun _ => rfl⟩
  simp only [Effects.updateDisplays]
  generalize hb : (if Effects.categoryOf cb.fxtype = Effects.CATEGORY_NONE then { cb.base with state := false } else cb.base) = b
  obtain ⟨k1, k2, k3, k4, k5, k6⟩ := key b hb.symm
  have d := drawn (Effects.baseConfig fxConfig (Effects.categoryOf cb.fxtype)) b
  have hbases : bases ((if cb.currentType = cb.fxtype then [] else if fxConfig.hasLabel then
        ((Effects.categoryText fxConfig (Effects.categoryOf cb.fxtype) cb.fxtype).map Effects.Eff.text).toList else []) ++
      (Binary.updateDisplays (Effects.baseConfig fxConfig (Effects.categoryOf cb.fxtype)) b).2.map .base) =
      (Binary.updateDisplays (Effects.baseConfig fxConfig (Effects.categoryOf cb.fxtype)) b).2 := by
    rw [bases_append, bases_map]
    split
    · rfl
    · split
      · rw [bases_texts]; rfl
      · rfl
  refine ⟨fun p => by rw [hbases]; exact d.msgs p, by rw [d.value, k1], rfl, d.shown, ?_, by rw [d.current, k1], ?_, ?_⟩
  · intro l h
    rw [hbases]
    have hl := d.led (hr _) l (by rw [k4]; exact h.shown)
    obtain ⟨e1, e2⟩ := d.disable (by rw [k2]; exact h.disable) (by rw [k3]; exact h.upd)
    exact ⟨⟨e1, e2, Or.inr (by rw [d.shown, hl])⟩, hl⟩
  · intro h1 h2
    rw [d.same (by rw [k5, k1]; exact h2), k6 h1]
  · intro h1 h2
    rw [d.eval (by rw [k5, k1]; exact h2), k1]
    cases cb.base.value <;> rfl

/-- An effect slot between two events. -/
structure FxOk (on : Bool) (lit : Option Bool) (x : Fx) : Prop where
  interval : x.period.interval = 600
  disable : x.cb.base.disable = .one (.num 0)
  upd : x.cb.base.updateDisabled = .one false
  shown : x.cb.base.displayState = some x.cb.base.state
  lit : on = false → lit = some x.cb.base.state

theorem stateChanged_fx {c : Binary.Config} (he : c.enable = .one 1) (hm : c.hasMappingDisable = false) {st : Binary.State}
    (hd : st.disable = .one (.num 0)) :
    Binary.stateChanged c st = [.set false (.one (if st.state then 1 else 0)), .request] := by
  unfold Binary.stateChanged
  rw [hd, he, hm]
  cases st.state <;> rfl

/-- The state is changed by the user. -/
theorem setState_ok {on : Bool} {lit : Option Bool} {x : Fx} (h : FxOk on lit x) (s : Bool) :
    FxOk on (ledOf lit (bases (x.setState s).2)) (x.setState s).1 ∧ (x.setState s).1.period = x.period ∧
    (x.setState s).1.cb.fxtype = x.cb.fxtype ∧
    (∀ slot < 4, msgs (Table.effectState slot) (bases (x.setState s).2) = if s = x.cb.base.state then [] else [effect slot s]) ∧
    (Effects.categoryOf x.cb.fxtype ≠ 0 → (x.setState s).1.cb.base.state = s) := by
  by_cases hs : s = x.cb.base.state
  · simp only [Fx.setState, if_pos hs, bases, ledOf, msgs]
    exact ⟨h, trivial, trivial, fun _ _ => trivial, fun _ => hs.symm⟩
  · simp only [Fx.setState, if_neg hs]
    rw [stateChanged_fx (st := { x.cb.base with state := s }) rfl rfl h.disable]
    simp only [Button.firstSet]
    generalize hcb : ({ x.cb with base := { x.cb.base with state := s, value := some (if s then 1 else 0) } } : Effects.State) = cb
    have d1 := cbDrawn cb
    have d2 := cbDrawn (Effects.updateDisplays fxConfig cb).1
    have hb : bases ([Binary.Eff.set false (.one (if s then 1 else 0)), .request].map Effects.Eff.base ++
        (Effects.updateDisplays fxConfig cb).2 ++ (Effects.updateDisplays fxConfig (Effects.updateDisplays fxConfig cb).1).2) =
        [Binary.Eff.set false (.one (if s then 1 else 0)), .request] ++ bases (Effects.updateDisplays fxConfig cb).2 ++
          bases (Effects.updateDisplays fxConfig (Effects.updateDisplays fxConfig cb).1).2 := by
      rw [bases_append, bases_append, bases_map]
    rw [hb]
    have hl0 : ∀ l, ledOf l [Binary.Eff.set false (.one (if s then 1 else 0)), .request] = l := fun _ => rfl
    refine ⟨?_, trivial, ?_, ?_, ?_⟩
    · have c0 : CbOk x.cb.base.displayState cb := by
        subst hcb; exact ⟨h.disable, h.upd, Or.inr rfl⟩
      obtain ⟨a1, a2⟩ := d1.led _ c0
      obtain ⟨b1, b2⟩ := d2.led _ a1
      refine ⟨h.interval, b1.disable, b1.upd, d2.shown, fun ho => ?_⟩
      have e : lit = x.cb.base.displayState := by rw [h.lit ho, h.shown]
      rw [ledOf_append, ledOf_append, hl0, e, b2]
    · rw [d2.fxtype, d1.fxtype]; subst hcb; rfl
    · intro slot hslot
      rw [msgs_append, msgs_append, d1.msgs, d2.msgs]
      simp [msgs, effect_msg hslot]
    · intro hcat
      have f1 : cb.fxtype = x.cb.fxtype := by subst hcb; rfl
      have f2 : (Effects.updateDisplays fxConfig cb).1.base.state = s := by
        by_cases hcur : cb.base.currentValue = some cb.base.value
        · rw [d1.same (by rw [f1]; exact hcat) hcur]; subst hcb; rfl
        · rw [d1.eval (by rw [f1]; exact hcat) hcur]; subst hcb; cases s <;> rfl
      rw [d2.same (by rw [d1.fxtype, f1]; exact hcat) (by rw [d1.current, d1.value]), f2]

/-- Other events of an effect slot which draw it: reports, resets, loss of the connection. -/
theorem other_ok {on on' : Bool} {lit lit' : Option Bool} {x : Fx} (h : FxOk on lit x) (o : Effects.Op)
    (ho : (∃ v, o = .value v) ∨ (∃ t, o = .fxtype t) ∨ o = .reset)
    (hl : on' = false → (on = false ∧ lit' = lit) ∨ o = .reset) :
    FxOk on' (ledOf lit' (bases (x.other o).2)) (x.other o).1 ∧ (x.other o).1.period = x.period ∧
    (∀ p, msgs p (bases (x.other o).2) = []) := by
  have key : ∀ cb : Effects.State, cb.base.disable = .one (.num 0) → cb.base.updateDisabled = .one false →
      (on' = false → cb.base.displayState = none ∨ cb.base.displayState = lit') →
      FxOk on' (ledOf lit' (bases (Effects.updateDisplays fxConfig cb).2)) ⟨x.period, (Effects.updateDisplays fxConfig cb).1⟩ ∧
      (∀ p, msgs p (bases (Effects.updateDisplays fxConfig cb).2) = []) := by
    intro cb h1 h2 h3
    have d := cbDrawn cb
    obtain ⟨a1, _⟩ := d.led cb.base.displayState ⟨h1, h2, Or.inr rfl⟩
    refine ⟨⟨h.interval, a1.disable, a1.upd, d.shown, fun ho' => ?_⟩, d.msgs⟩
    exact (d.led _ ⟨h1, h2, h3 ho'⟩).2
  rcases ho with ⟨v, rfl⟩ | ⟨t, rfl⟩ | rfl
  · obtain ⟨a, b⟩ := key { x.cb with base := { x.cb.base with value := v } } h.disable h.upd
      (fun ho' => by rcases hl ho' with ⟨h1, h2⟩ | h1
                     · exact Or.inr (by rw [h2, h.lit h1]; exact h.shown)
                     · simp at h1)
    exact ⟨a, rfl, b⟩
  · obtain ⟨a, b⟩ := key { x.cb with fxtype := t } h.disable h.upd
      (fun ho' => by rcases hl ho' with ⟨h1, h2⟩ | h1
                     · exact Or.inr (by rw [h2, h.lit h1]; exact h.shown)
                     · simp at h1)
    exact ⟨a, rfl, b⟩
  · obtain ⟨a, b⟩ := key { Effects.reset x.cb with base := { (Effects.reset x.cb).base with state := false } } h.disable h.upd
      (fun _ => Or.inl rfl)
    exact ⟨a, rfl, b⟩

/-! ### Tap tempo -/

theorem msgs_sets (p : Table.Param) (es : List Binary.Eff) :
    msgs p es = (Binary.sets es).flatMap (fun x => match x.2 with | .one v => msg p v | .many _ => []) := by
  induction es with
  | nil => rfl
  | cons e es ih =>
    cases e with
    | set d v => cases v <;> simp [msgs, Binary.sets, ih]
    | _ => simp [msgs, Binary.sets, ih]

theorem tap_setState {t : Button.State} (h : Button.Unknown 0 t) (s : Bool) :
    Button.Unknown 0 (Button.setState Button.tapTempo t s).1 ∧ (Button.setState Button.tapTempo t s).1.cb.state = s ∧
    msgs Button.tapTempoParam (Button.setState Button.tapTempo t s).2 =
      if s = t.cb.state then [] else [cc 30 (if s then 1 else 0)] := by
  by_cases hs : s = t.cb.state
  · simp only [Button.setState, if_pos hs, msgs]
    exact ⟨h, hs.symm, trivial⟩
  · obtain ⟨t1, t2, t3⟩ := Button.toggle_unknown (c := Button.tapTempo.callback) (on := 1) rfl rfl h
    have e : (!t.cb.state) = s := by cases s <;> cases hx : t.cb.state <;> simp_all
    have hf : Button.fedBack Button.tapTempo t.cb s = none := rfl
    simp only [Button.setState, if_neg hs, hf]
    refine ⟨t1, by rw [t2, e], ?_⟩
    rw [msgs_sets, t3, e]
    cases s <;> rfl

theorem tap_reset {t : Button.State} (h : Button.Unknown 0 t) :
    Button.Unknown 0 (Button.step Button.tapTempo t .reset).1 ∧ (Button.step Button.tapTempo t .reset).1.cb.state = false := by
  obtain ⟨h1, h2, h3⟩ := h
  obtain ⟨p, cb⟩ := t
  obtain ⟨v, s, d, u, cv, ds, col⟩ := cb
  simp only at h1 h2 h3
  subst h1 h2 h3
  have hev : ∀ s, Binary.evaluate Button.tapTempo.callback s none = false := fun _ => rfl
  have hre : ∀ st s, Binary.remember st s none = st.disable := fun _ _ => rfl
  simp only [Button.step, Binary.step, Binary.reset, Binary.updateDisplays, Binary.evaluateValue, hev, hre]
  simp only [ne_eq, reduceCtorEq, not_false_eq_true, if_true]
  split <;> exact ⟨⟨rfl, rfl, rfl⟩, rfl⟩

/-! ### Tuner mode -/

/-- The TUNER_MODE action: "off" is 0. -/
structure TunOk (t : Button.State) : Prop where
  interval : t.period.interval = 600
  disable : t.cb.disable = .one (.num 0)
  upd : t.cb.updateDisabled = .one false

theorem tuner_msg (s : Bool) : msg Table.tunerMode (if s then 1 else 0) = [tuner s] := by cases s <;> rfl

theorem tuner_setState {t : Button.State} (h : TunOk t) (s : Bool) :
    TunOk (Button.setState tunerButton t s).1 ∧ (Button.setState tunerButton t s).1.period = t.period ∧
    (Button.setState tunerButton t s).1.cb.state = s ∧
    (s ≠ t.cb.state → (Button.setState tunerButton t s).1.cb.value = some (if s then 1 else 0)) ∧
    msgs Table.tunerMode (Button.setState tunerButton t s).2 = (if s = t.cb.state then [] else [tuner s]) ∧
    Button.firstSet (Button.setState tunerButton t s).2 = (if s = t.cb.state then none else some (if s then 1 else 0)) := by
  by_cases hs : s = t.cb.state
  · simp only [Button.setState, if_pos hs, msgs, Button.firstSet]
    exact ⟨h, trivial, hs.symm, fun a => absurd hs a, trivial, trivial⟩
  · have e : (!t.cb.state) = s := by cases s <;> cases hx : t.cb.state <;> simp_all
    have hsc : Binary.stateChanged tunerButton.callback { t.cb with state := s } =
        [.set false (.one (if s then 1 else 0)), .request] := stateChanged_fx rfl rfl h.disable
    have hf : Button.fedBack tunerButton t.cb s = some (if s then 1 else 0) := by
      unfold Button.fedBack
      rw [hsc]; rfl
    simp only [Button.setState, if_neg hs, hf, Binary.toggle, e, hsc]
    generalize hcb : ({ t.cb with state := s, value := some (if s then 1 else 0) } : Binary.State) = cb
    have d1 := drawn tunerButton.callback cb
    have d2 := drawn tunerButton.callback (Binary.updateDisplays tunerButton.callback cb).1
    obtain ⟨x1, x2⟩ := d1.disable (by subst hcb; exact h.disable) (by subst hcb; exact h.upd)
    obtain ⟨y1, y2⟩ := d2.disable x1 x2
    have st1 : (Binary.updateDisplays tunerButton.callback cb).1.state = s := by
      by_cases hcur : cb.currentValue = some cb.value
      · rw [d1.same hcur]; subst hcb; rfl
      · rw [d1.eval hcur]; subst hcb; cases s <;> rfl
    refine ⟨⟨h.interval, y1, y2⟩, trivial, ?_, fun _ => ?_, ?_, ?_⟩
    · rw [d2.same (by rw [d1.current, d1.value]), st1]
    · rw [d2.value, d1.value]; subst hcb; rfl
    · rw [msgs_append, msgs_append, d1.msgs, d2.msgs]
      simp [msgs, tuner_msg]
    · rfl

/-- A new value or a reset of the action: the latter makes the state follow the value. -/
theorem tuner_value {t : Button.State} (h : TunOk t) (v : Option Int) :
    TunOk (Button.step tunerButton t (.value v)).1 ∧ (Button.step tunerButton t (.value v)).1.cb.value = v ∧
    (Button.step tunerButton t (.value v)).1.period = t.period ∧
    (t.cb.state = false → (∀ n, v = some n → n ≠ 1) → (Button.step tunerButton t (.value v)).1.cb.state = false) := by
  have d := drawn tunerButton.callback { t.cb with value := v }
  obtain ⟨x1, x2⟩ := d.disable h.disable h.upd
  refine ⟨⟨h.interval, x1, x2⟩, d.value, rfl, fun hs hv => ?_⟩
  by_cases hcur : t.cb.currentValue = some v
  · exact (d.same hcur).trans hs
  · refine (d.eval hcur).trans ?_
    cases v with
    | none => rfl
    | some n =>
      have := hv n rfl
      show decide (n = 1) = false
      simp [this]

theorem tuner_reset {t : Button.State} (h : TunOk t) :
    TunOk (Button.step tunerButton t .reset).1 ∧ (Button.step tunerButton t .reset).1.period = t.period ∧
    (t.cb.value ≠ some 1 → (Button.step tunerButton t .reset).1.cb.state = false) := by
  have d := drawn tunerButton.callback { Binary.reset t.cb with state := false }
  obtain ⟨x1, x2⟩ := d.disable h.disable h.upd
  refine ⟨⟨h.interval, x1, x2⟩, rfl, fun hv => ?_⟩
  refine (d.eval (by simp [Binary.reset])).trans ?_
  have e : ({ Binary.reset t.cb with state := false } : Binary.State).value = t.cb.value := rfl
  rw [e]
  cases hx : t.cb.value with
  | none => rfl
  | some n =>
    have : n ≠ 1 := fun e => hv (by rw [hx, e])
    show decide (n = 1) = false
    simp [this]

/-! ### All actions -/

/-- The actions, while they are called. -/
structure ActsOk (on : Bool) (a : Acts) : Prop where
  fx : ∀ i < 4, FxOk on (a.lit i) (a.fx i)
  tap : Button.Unknown 0 a.tap
  tuner : TunOk a.tuner
  rig : ∀ i, (a.rig i).rigOff = none ∧ (a.rig i).bankOff = none ∧ ((a.rig i).sent = none ∨ (a.rig i).sent = some (i : Int))
  shared : a.shared.preselectedBank = none

/-- What is the same for switch `k`'s actions: the time of its press, and the rig which will be released. -/
structure Frame (k : Nat) (a b : Acts) : Prop where
  period : k < 4 → (b.fx k).period = (a.fx k).period
  sent : 5 ≤ k → (b.rig (k - 5)).sent = (a.rig (k - 5)).sent

theorem Frame.rfl {k : Nat} {a : Acts} : Frame k a a := ⟨fun _ => Eq.refl _, fun _ => Eq.refl _⟩

theorem Frame.trans {k : Nat} {a b c : Acts} (h : Frame k a b) (h' : Frame k b c) : Frame k a c :=
  ⟨fun e => (h'.period e).trans (h.period e), fun e => (h'.sent e).trans (h.sent e)⟩

theorem withFx_ok {on : Bool} {a : Acts} (h : ActsOk on a) {slot : Nat} (r : Fx × List Effects.Eff)
    (hr : FxOk on (ledOf (a.lit slot) (bases r.2)) r.1) : ActsOk on (withFx a slot r).1 := by
  refine ⟨fun i hi => ?_, h.tap, h.tuner, h.rig, h.shared⟩
  simp only [withFx]
  by_cases e : i = slot
  · subst e; simpa using hr
  · simpa [e] using h.fx i hi

theorem withFx_frame {k : Nat} (a : Acts) {slot : Nat} (r : Fx × List Effects.Eff)
    (hr : k = slot → r.1.period = (a.fx slot).period) : Frame k a (withFx a slot r).1 := by
  refine ⟨fun _ => ?_, fun _ => rfl⟩
  simp only [withFx]
  by_cases e : k = slot
  · subst e; simpa using hr rfl
  · simp [e]

/-- Resetting the actions of all switches. -/
theorem applyResets_eq (a : Acts) : applyResets a ((List.range switches.length).map .resetActions) =
    resetOne (resetOne (resetOne (resetOne (resetOne a 0) 1) 2) 3) 4 := rfl

/-- Reset of an effect slot: it is drawn again in any case. -/
theorem resetFx_fields (a : Acts) {k : Nat} (hk : k < 4) :
    resetOne a k = (withFx a k ((a.fx k).other .reset)).1 := by unfold resetOne; rw [if_pos hk]

theorem tunerValue_ok {on : Bool} {st : State} (h : ActsOk on st.acts) {v : Int} (hv : st.acts.tuner.cb.value = some v) :
    (tunerValue st v).ov.on = (v == 1) ∧ (tunerValue st v).ov.switches = st.ov.switches ∧
    (tunerValue st v).ov.pushedBefore = st.ov.pushedBefore ∧
    ActsOk (v == 1) (tunerValue st v).acts ∧ (v ≠ 1 → (tunerValue st v).acts.tuner.cb.state = false) ∧
    (∀ k, Frame k st.acts (tunerValue st v).acts) ∧
    (tunerValue st v).acts.tuner.period = st.acts.tuner.period ∧
    (st.acts.tap.cb.state = false → (tunerValue st v).acts.tap.cb.state = false) := by
  by_cases h1 : v = 1
  · subst h1
    simp only [tunerValue, Tuner.overrideStep, if_true]
    exact ⟨by simp, trivial, trivial, ⟨fun i hi => ⟨(h.fx i hi).interval, (h.fx i hi).disable, (h.fx i hi).upd, (h.fx i hi).shown,
      fun e => by simp at e⟩, h.tap, h.tuner, h.rig, h.shared⟩, fun e => absurd rfl e, fun k => ⟨fun _ => Eq.refl _, fun _ => Eq.refl _⟩, trivial, fun e => e⟩
  · have hb : (v == 1) = false := by simpa using h1
    simp only [tunerValue, Tuner.overrideStep, if_neg h1, hb, applyResets_eq]
    -- the four effect slots
    have fxs : ∀ i < 4, ∀ l, FxOk false (ledOf l (bases (((st.acts.fx i).other .reset).2))) ((st.acts.fx i).other .reset).1 ∧
        ((st.acts.fx i).other .reset).1.period = (st.acts.fx i).period := by
      intro i hi l
      obtain ⟨a1, a2, _⟩ := other_ok (h.fx i hi) .reset (on' := false) (lit' := l) (Or.inr (Or.inr rfl)) (fun _ => Or.inr rfl)
      exact ⟨a1, a2⟩
    generalize ha : resetOne (resetOne (resetOne (resetOne st.acts 0) 1) 2) 3 = b
    have hfx : ∀ i < 4, FxOk false (b.lit i) (b.fx i) ∧ (b.fx i).period = (st.acts.fx i).period := by
      intro i hi
      rcases i with _ | _ | _ | _ | i
      · subst ha; simp [resetOne, withFx]; simpa using fxs 0 (by omega) (st.acts.lit 0)
      · subst ha; simp [resetOne, withFx]; simpa using fxs 1 (by omega) (st.acts.lit 1)
      · subst ha; simp [resetOne, withFx]; simpa using fxs 2 (by omega) (st.acts.lit 2)
      · subst ha; simp [resetOne, withFx]; simpa using fxs 3 (by omega) (st.acts.lit 3)
      · omega
    have hrest : b.tap = st.acts.tap ∧ b.tuner = st.acts.tuner ∧ b.rig = st.acts.rig ∧ b.shared = st.acts.shared := by
      subst ha; exact ⟨rfl, rfl, rfl, rfl⟩
    obtain ⟨r1, r2, r3, r4⟩ := hrest
    simp only [resetOne, show ¬ (4 < 4) by omega, if_false, if_true]
    obtain ⟨t1, t2⟩ := tap_reset (t := b.tap) (by rw [r1]; exact h.tap)
    obtain ⟨u1, u2, u3⟩ := tuner_reset (t := b.tuner) (by rw [r2]; exact h.tuner)
    refine ⟨trivial, trivial, trivial, ⟨fun i hi => (hfx i hi).1, t1, u1, by rw [r3]; exact h.rig, by rw [r4]; exact h.shared⟩,
      fun _ => u3 (by rw [r2, hv]; simpa using h1), fun k => ⟨fun hk => (hfx k hk).2, fun _ => by rw [r3]⟩, by rw [u2, r2], fun _ => t2⟩

/-- What an action can write. -/
def actionMsgs (a : Nat) : List Msg :=
  if a < 4 then [effect a true, effect a false]
  else if a = 4 then tap
  else if a = 6 then [tuner true, tuner false]
  else if a = 7 then previousBank
  else if a = 13 then nextBank
  else if 8 ≤ a ∧ a ≤ 12 then rig (a - 8)
  else []

/-- The switch an action belongs to. -/
def owner (a : Nat) : Nat :=
  if a < 4 then a else if a ≤ 6 then 4 else if a ≤ 8 then 5 else if a ≤ 11 then a - 3 else if a ≤ 13 then 9 else 10

/-- What holds after an action has been called, or the tuner has been left. -/
structure Called (st st' : State) (own : Nat → Prop) : Prop where
  acts : ActsOk st'.ov.on st'.acts
  switches : st'.ov.switches = st.ov.switches
  pushed : st'.ov.pushedBefore = st.ov.pushedBefore
  off : (st.ov.on = false → st.acts.tuner.cb.state = false) → st'.ov.on = false → st'.acts.tuner.cb.state = false
  frame : ∀ k, ¬ own k → Frame k st.acts st'.acts

theorem rig_push {i : Nat} {x : Rigs.SelState} {sh : Rigs.Shared} (h1 : x.rigOff = none) (h2 : sh.preselectedBank = none) :
    ((rigSelect i).push x sh).1 = { x with sent := some (i : Int) } ∧ ((rigSelect i).push x sh).2.1.preselectedBank = none ∧
    ((rigSelect i).push x sh).2.2 = [⟨50 + i, 1⟩] := by
  have hs : (rigSelect i).slot x sh = some (i : Int) := by
    simp only [Rigs.RigSelect.slot, h1, rigSelect]
    split
    · rename_i h; simp at h
    · simp
  unfold Rigs.RigSelect.push
  simp only [hs, h2]
  exact ⟨trivial, trivial, rfl⟩

theorem rig_release {i : Nat} {x : Rigs.SelState} {sh : Rigs.Shared} (h1 : x.sent = none ∨ x.sent = some (i : Int)) :
    ((rigSelect i).release x sh).1 = { x with sent := none } ∧
    ((rigSelect i).release x sh).2.1.preselectedBank = sh.preselectedBank ∧
    ((rigSelect i).release x sh).2.2 = (if x.sent = none then [] else [⟨50 + i, 0⟩]) := by
  have hm : ∀ v, ((rigSelect i).rigBtnMorph ∧ x.rigOff = none ∧ x.bankOff = none ∧ (rigSelect i).isCurrent v ∧
      (rigSelect i).momentaryMorph) ↔ False := by
    intro v; simp [rigSelect]
  obtain ⟨v, se, cv, ro, bo⟩ := x
  simp only at h1 hm
  unfold Rigs.RigSelect.release
  rcases h1 with h1 | h1 <;> subst h1 <;> cases v <;> simp [hm, Rigs.rigSelect]

theorem cc_msg (i v : Nat) : ccMsg ⟨50 + i, v⟩ = cc (50 + i) v := by
  simp only [ccMsg, Table.cc, cc]
  congr 1

/-- `push()` or `release()` of the tuner action. -/
theorem withTuner_ok {st : State} (h : ActsOk st.ov.on st.acts) {t : Button.State} (ht : TunOk t) (s : Bool)
    (hs : t.cb.state = st.acts.tuner.cb.state) :
    Called st (withTuner st (Button.setState tunerButton t s)).1 (fun _ => False) ∧
    (withTuner st (Button.setState tunerButton t s)).2 = (if s = t.cb.state then [] else [tuner s]) ∧
    (withTuner st (Button.setState tunerButton t s)).1.ov.on = (if s = t.cb.state then st.ov.on else s) ∧
    (withTuner st (Button.setState tunerButton t s)).1.acts.tuner.period = t.period ∧
    (st.acts.tap.cb.state = false → (withTuner st (Button.setState tunerButton t s)).1.acts.tap.cb.state = false) := by
  obtain ⟨a1, a2, a3, a4, a5, a6⟩ := tuner_setState ht s
  by_cases e : s = t.cb.state
  · simp only [withTuner, a6, a5, if_pos e]
    refine ⟨⟨⟨h.fx, h.tap, a1, h.rig, h.shared⟩, rfl, rfl, fun x y => ?_, fun k _ => ⟨fun _ => rfl, fun _ => rfl⟩⟩, trivial, trivial, a2, fun x => x⟩
    show (Button.setState tunerButton t s).1.cb.state = false
    rw [a3, e, hs]; exact x y
  · have hk : ActsOk st.ov.on ({ st with acts := { st.acts with tuner := (Button.setState tunerButton t s).1 } } : State).acts :=
      ⟨h.fx, h.tap, a1, h.rig, h.shared⟩
    obtain ⟨b1, b2, b3, b4, b5, b6, b7, b8⟩ := tunerValue_ok hk (a4 e)
    have hon : ((if s then 1 else 0 : Int) == 1) = s := by cases s <;> rfl
    rw [hon] at b1 b4
    simp only [withTuner, a6, a5, if_neg e]
    refine ⟨⟨by rw [b1]; exact b4, b2, b3, fun _ y => b5 ?_, fun k _ => ⟨(b6 k).period, (b6 k).sent⟩⟩, trivial, b1, ?_, b8⟩
    · rw [b1] at y; subst y; simp
    · rw [b7]; exact a2

theorem call_ok {st : State} (h : ActsOk st.ov.on st.acts) (now : Int) (a : Nat) (d : Bool) :
    Called st (call st now a d).1 (fun k => k = owner a) ∧ (∀ m ∈ (call st now a d).2, m ∈ actionMsgs a) ∧
    (a ≠ 4 → st.acts.tap.cb.state = false → (call st now a d).1.acts.tap.cb.state = false) ∧
    (a ≠ 6 → (call st now a d).1.ov.on = st.ov.on) ∧
    (a = 6 → (call st now a d).1.ov.on = st.ov.on ∧ (call st now a d).2 = [] ∨
      ∃ s, (call st now a d).1.ov.on = s ∧ (call st now a d).2 = [tuner s]) := by
  unfold call
  by_cases h4 : a < 4
  · rw [if_pos h4]
    have key : ∀ r : Fx × List Effects.Eff, FxOk st.ov.on (ledOf (st.acts.lit a) (bases r.2)) r.1 →
        (∀ m ∈ msgs (Table.effectState a) (bases r.2), m ∈ actionMsgs a) →
        Called st { st with acts := (withFx st.acts a r).1 } (fun k => k = owner a) ∧
        (∀ m ∈ (withFx st.acts a r).2, m ∈ actionMsgs a) ∧
        (a ≠ 4 → st.acts.tap.cb.state = false → (withFx st.acts a r).1.tap.cb.state = false) ∧ (a ≠ 6 → st.ov.on = st.ov.on) ∧
        (a = 6 → st.ov.on = st.ov.on ∧ (withFx st.acts a r).2 = [] ∨ ∃ s, st.ov.on = s ∧ (withFx st.acts a r).2 = [tuner s]) := by
      intro r hr hm
      refine ⟨⟨withFx_ok h r hr, rfl, rfl, fun x y => x y, fun k hk => withFx_frame st.acts r (fun e => absurd ?_ hk)⟩, hm, fun _ x => x,
        fun _ => rfl, fun e => by omega⟩
      show k = owner a
      rw [e]; simp [owner, h4]
    have hset : ∀ (p : PeriodCounter) (s : Bool), p.interval = 600 →
        FxOk st.ov.on (ledOf (st.acts.lit a) (bases (Fx.setState ⟨p, (st.acts.fx a).cb⟩ s).2))
          (Fx.setState ⟨p, (st.acts.fx a).cb⟩ s).1 ∧
        (∀ m ∈ msgs (Table.effectState a) (bases (Fx.setState ⟨p, (st.acts.fx a).cb⟩ s).2), m ∈ actionMsgs a) := by
      intro p s hp
      have hx := h.fx a h4
      have hx' : FxOk st.ov.on (st.acts.lit a) ⟨p, (st.acts.fx a).cb⟩ := ⟨hp, hx.disable, hx.upd, hx.shown, hx.lit⟩
      obtain ⟨b1, _, _, b4, _⟩ := setState_ok hx' s
      refine ⟨b1, fun m hm => ?_⟩
      rw [b4 a h4] at hm
      split at hm
      · simp at hm
      · simp only [List.mem_singleton] at hm
        subst hm
        simp only [actionMsgs, if_pos h4]
        cases s <;> simp
    have hall : FxOk st.ov.on (ledOf (st.acts.lit a) (bases (if d then (st.acts.fx a).push now else (st.acts.fx a).release now).2))
          (if d then (st.acts.fx a).push now else (st.acts.fx a).release now).1 ∧
        (∀ m ∈ msgs (Table.effectState a) (bases (if d then (st.acts.fx a).push now else (st.acts.fx a).release now).2),
          m ∈ actionMsgs a) := by
      cases d with
      | true =>
        simp only [if_true]
        exact hset ((st.acts.fx a).period.reset now) (!(st.acts.fx a).cb.base.state) (by
          simp [PeriodCounter.reset, (h.fx a h4).interval])
      | false =>
        simp only [Bool.false_eq_true, if_false]
        have hp : ((st.acts.fx a).period.exceeded now).2.interval = 600 := by
          unfold PeriodCounter.exceeded
          split <;> simp [(h.fx a h4).interval]
        unfold Fx.release
        by_cases hx : ((st.acts.fx a).period.exceeded now).1
        · simp only [hx, if_true]
          exact hset _ (!(st.acts.fx a).cb.base.state) hp
        · simp only [hx]
          have hy := h.fx a h4
          exact ⟨⟨hp, hy.disable, hy.upd, hy.shown, hy.lit⟩, fun m hm => by simp [bases, msgs] at hm⟩
    exact key _ hall.1 hall.2
  · rw [if_neg h4]
    by_cases h5 : a = 4
    · rw [if_pos h5]
      have key : ∀ s, (∀ m ∈ msgs Button.tapTempoParam (Button.setState Button.tapTempo st.acts.tap s).2, m ∈ actionMsgs a) := by
        intro s m hm
        rw [(tap_setState h.tap s).2.2] at hm
        split at hm
        · simp at hm
        · simp only [List.mem_singleton] at hm
          subst hm h5
          cases s <;> simp [actionMsgs, tap]
      have key2 : ∀ s, Called st ({ st with acts := { st.acts with tap := (Button.setState Button.tapTempo st.acts.tap s).1 } })
          (fun k => k = owner a) := fun s =>
        ⟨⟨h.fx, (tap_setState h.tap s).1, h.tuner, h.rig, h.shared⟩, rfl, rfl, fun x y => x y, fun k _ => ⟨fun _ => rfl, fun _ => rfl⟩⟩
      cases d with
      | true => exact ⟨key2 true, key true, fun e => absurd h5 e, fun _ => rfl, fun e => by omega⟩
      | false => exact ⟨key2 false, key false, fun e => absurd h5 e, fun _ => rfl, fun e => by omega⟩
    · rw [if_neg h5]
      by_cases h6 : a = 6
      · rw [if_pos h6]
        have key : ∀ (p : PeriodCounter) (s : Bool), p.interval = 600 →
            let r := withTuner st (Button.setState tunerButton { st.acts.tuner with period := p } s)
            Called st r.1 (fun k => k = owner a) ∧ (∀ m ∈ r.2, m ∈ actionMsgs a) ∧
            (a ≠ 4 → st.acts.tap.cb.state = false → r.1.acts.tap.cb.state = false) ∧ (a ≠ 6 → r.1.ov.on = st.ov.on) ∧
            (a = 6 → r.1.ov.on = st.ov.on ∧ r.2 = [] ∨ ∃ s, r.1.ov.on = s ∧ r.2 = [tuner s]) := by
          intro p s hp r
          obtain ⟨b1, b2, b3, _, b5⟩ := withTuner_ok h (t := { st.acts.tuner with period := p }) ⟨hp, h.tuner.disable, h.tuner.upd⟩ s rfl
          refine ⟨⟨b1.acts, b1.switches, b1.pushed, b1.off, fun k _ => b1.frame k id⟩, ?_, fun _ => b5, fun e => absurd h6 e, fun _ => ?_⟩
          · intro m hm
            rw [b2] at hm
            split at hm
            · simp at hm
            · simp only [List.mem_singleton] at hm
              subst hm
              cases s <;> simp [actionMsgs, h6]
          · by_cases e : s = st.acts.tuner.cb.state
            · exact Or.inl ⟨by rw [b3, if_pos e], by rw [b2, if_pos e]⟩
            · exact Or.inr ⟨s, by rw [b3, if_neg e], by rw [b2, if_neg e]⟩
        cases d with
        | true => exact key (st.acts.tuner.period.reset now) (!st.acts.tuner.cb.state) (by simp [PeriodCounter.reset, h.tuner.interval])
        | false =>
          have hp : (st.acts.tuner.period.exceeded now).2.interval = 600 := by
            unfold PeriodCounter.exceeded
            split <;> simp [h.tuner.interval]
          simp only [Bool.false_eq_true, if_false, Button.step, Button.release, tunerButton, Button.tunerMode]
          by_cases hx : (st.acts.tuner.period.exceeded now).1
          · simp only [hx, if_true]
            exact key _ (!st.acts.tuner.cb.state) hp
          · simp only [hx]
            refine ⟨⟨⟨h.fx, h.tap, ⟨hp, h.tuner.disable, h.tuner.upd⟩, h.rig, h.shared⟩, rfl, rfl, fun x y => x y,
              fun k _ => ⟨fun _ => rfl, fun _ => rfl⟩⟩, fun m hm => by simp [withTuner, msgs] at hm, fun _ x => x, fun _ => rfl,
              fun _ => Or.inl ⟨rfl, rfl⟩⟩
      · rw [if_neg h6]
        by_cases h7 : a = 7 ∨ a = 13
        · rw [if_pos h7]
          cases d with
          | false => exact ⟨⟨h, rfl, rfl, fun x y => x y, fun k _ => Frame.rfl⟩, fun m hm => by simp at hm, fun _ x => x, fun _ => rfl,
              fun e => absurd e h6⟩
          | true =>
            simp only [if_true]
            refine ⟨⟨⟨h.fx, h.tap, h.tuner, h.rig, ?_⟩, rfl, rfl, fun x y => x y, fun k _ => ⟨fun _ => rfl, fun _ => rfl⟩⟩, ?_, fun _ x => x,
              fun _ => by trivial, fun e => absurd e h6⟩
            · rcases h7 with e | e <;> subst e <;> exact h.shared
            · rcases h7 with e | e <;> subst e <;> intro m hm <;> exact hm
        · rw [if_neg h7]
          by_cases h8 : 8 ≤ a ∧ a ≤ 12
          · rw [if_pos h8]
            obtain ⟨g1, g2, g3⟩ := h.rig (a - 8)
            have hown : ∀ k, ¬ k = owner a → 5 ≤ k → k - 5 ≠ a - 8 := by
              intro k hk h5' e
              apply hk
              unfold owner
              rw [if_neg h4]
              split
              · omega
              · split
                · omega
                · split
                  · omega
                  · rw [if_pos (by omega)]; omega
            cases d with
            | true =>
              simp only [if_true]
              obtain ⟨p1, p2, p3⟩ := rig_push (i := a - 8) g1 h.shared
              refine ⟨⟨⟨h.fx, h.tap, h.tuner, fun j => ?_, p2⟩, rfl, rfl, fun x y => x y,
                fun k hk => ⟨fun _ => rfl, fun e => ?_⟩⟩, ?_, fun _ x => x, fun _ => by trivial, fun e => absurd e h6⟩
              · simp only [p1]
                by_cases e : j = a - 8
                · simp only [if_pos e]; exact ⟨g1, g2, Or.inr (by rw [e])⟩
                · simp only [if_neg e]; exact h.rig j
              · simp only [if_neg (hown k hk e)]
              · intro m hm
                rw [p3] at hm
                simp only [List.map_cons, List.map_nil, List.mem_singleton] at hm
                subst hm
                rw [show (1 : Int) = ((1 : Nat) : Int) from rfl, cc_msg]
                simp [actionMsgs, h4, h5, h6, h8, show a ≠ 7 by omega, show a ≠ 13 by omega, rig]
            | false =>
              simp only [Bool.false_eq_true, if_false]
              obtain ⟨p1, p2, p3⟩ := rig_release (i := a - 8) (sh := st.acts.shared) g3
              refine ⟨⟨⟨h.fx, h.tap, h.tuner, fun j => ?_, by rw [p2]; exact h.shared⟩, rfl, rfl, fun x y => x y,
                fun k hk => ⟨fun _ => rfl, fun e => ?_⟩⟩, ?_, fun _ x => x, fun _ => by trivial, fun e => absurd e h6⟩
              · simp only [p1]
                by_cases e : j = a - 8
                · simp only [if_pos e]; exact ⟨g1, g2, Or.inl trivial⟩
                · simp only [if_neg e]; exact h.rig j
              · simp only [if_neg (hown k hk e)]
              · intro m hm
                rw [p3] at hm
                split at hm
                · simp at hm
                · simp only [List.map_cons, List.map_nil, List.mem_singleton] at hm
                  subst hm
                  rw [show (0 : Int) = ((0 : Nat) : Int) from rfl, cc_msg]
                  simp [actionMsgs, h4, h5, h6, h8, show a ≠ 7 by omega, show a ≠ 13 by omega, rig]
          · rw [if_neg h8]
            exact ⟨⟨h, rfl, rfl, fun x y => x y, fun k _ => Frame.rfl⟩, fun m hm => by simp at hm, fun _ x => x, fun _ => rfl, fun e => absurd e h6⟩

/-! ### Switches -/

/-- The calls of a switch in one `process()`. -/
inductive Form (c : Switch.Config) (on : Bool) : List Switch.Eff → Prop where
  | nothing : Form c on []
  | overridePush : on = true → Form c on [.overridePush]
  | overrideRelease : on = true → Form c on [.overrideRelease]
  | hold : Form c on (c.actionsHold.flatMap fun a => [.push a, .release a])
  | click : c.actionsHold ≠ [] → Form c on (c.actions.flatMap fun a => [.push a, .release a])
  | push : c.actionsHold = [] → Form c on (c.actions.map .push)
  | release : c.actionsHold = [] → Form c on (c.actions.map .release)

/-- A switch of this configuration between two events. -/
structure SwOk (c : Switch.Config) (sw : Switch.State) : Prop where
  interval : sw.period.interval = 600
  was : sw.holdWasActive = false
  hold : c.actionsHold = [] → sw.holdActive = false

/-- How a switch sees the tuner. -/
def sampleOf (on pushed : Bool) (now : Int) : Switch.Sample := { pushed, now, override := if on then some (false, false) else none }

theorem filter_true (l : List Nat) : l.filter (fun _ => true) = l := by simp

theorem checkHold_ok (c : Switch.Config) (hr : c.holdRepeat = false) (sw : Switch.State) (h : SwOk c sw) (s : Switch.Sample)
    (he : s.enabled = fun _ => true) :
    SwOk c (Switch.checkHold c sw s).2.1 ∧
    (Switch.checkHold c sw s).2.2 = (if (Switch.checkHold c sw s).1 then c.actionsHold.flatMap fun a => [.push a, .release a] else []) := by
  unfold Switch.checkHold
  have hp : (sw.period.exceeded s.now).2.interval = 600 := by
    unfold PeriodCounter.exceeded
    split <;> simp [h.interval]
  by_cases hx : (sw.period.exceeded s.now).1
  · simp only [hx, if_true, hr, Switch.fireHold, he, filter_true]
    exact ⟨⟨hp, h.was, fun _ => rfl⟩, trivial⟩
  · simp only [hx, Bool.false_eq_true, if_false]
    exact ⟨⟨hp, h.was, h.hold⟩, trivial⟩

theorem release_form (c : Switch.Config) (hr : c.holdRepeat = false) (sw : Switch.State) (h : SwOk c sw) (s : Switch.Sample)
    (he : s.enabled = fun _ => true) (on : Bool) : Form c on (Switch.release c sw s).2 ∧ SwOk c (Switch.release c sw s).1 := by
  have hk := checkHold_ok c hr sw h s he
  unfold Switch.release
  by_cases hc : c.actionsHold = []
  · simp only [hc, ne_eq, not_true_eq_false, if_false, Switch.releaseActions, he, filter_true]
    refine ⟨?_, ⟨h.interval, rfl, fun _ => rfl⟩⟩
    have : (c.actions.flatMap fun a => [Switch.Eff.release a]) = c.actions.map .release := by
      induction c.actions with
      | nil => rfl
      | cons a l ih => simp [ih]
    rw [this]; exact .release hc
  · rw [if_pos hc]
    by_cases ha : sw.holdActive
    · rw [if_neg (by simp [ha])]
      generalize Switch.checkHold c sw s = r at hk
      obtain ⟨k1, k2⟩ := hk
      by_cases hx : r.1
      · simp only [hx, if_true] at k2 ⊢
        rw [k2]; exact ⟨.hold, k1⟩
      · simp only [hx, Bool.false_eq_true, if_false] at k2 ⊢
        simp only [k1.was, Bool.false_eq_true, if_false, k2, List.nil_append, Switch.releaseActions, hc, ne_eq, not_false_eq_true,
          if_true, he, filter_true]
        exact ⟨.click hc, ⟨k1.interval, rfl, fun _ => rfl⟩⟩
    · rw [if_pos ha]
      exact ⟨.nothing, h⟩

theorem process_form (c : Switch.Config) (hr : c.holdRepeat = false) (sw : Switch.State) (h : SwOk c sw) (on pushed : Bool) (now : Int) :
    Form c on (Switch.process c sw (sampleOf on pushed now)).2 ∧ SwOk c (Switch.process c sw (sampleOf on pushed now)).1 := by
  have he : (sampleOf on pushed now).enabled = fun _ => true := rfl
  have hk := checkHold_ok c hr sw h (sampleOf on pushed now) he
  cases pushed with
  | false =>
    simp only [Switch.process, sampleOf, Bool.false_eq_true, not_false_eq_true, if_true]
    by_cases hp : sw.pushedState
    · simp only [hp, if_true]
      have hsw : SwOk c { sw with pushedState := false } := ⟨h.interval, h.was, h.hold⟩
      cases on with
      | true => simp only [if_true]; exact ⟨.overrideRelease rfl, hsw⟩
      | false =>
        simp only [Bool.false_eq_true, if_false]
        exact release_form c hr _ hsw _ rfl _
    · simp only [hp]
      exact ⟨.nothing, h⟩
  | true =>
    have hpp : ∀ sw, SwOk c sw → Form c on (Switch.processPushed c sw (sampleOf on true now)).2 ∧
        SwOk c (Switch.processPushed c sw (sampleOf on true now)).1 := by
      intro sw h
      unfold Switch.processPushed
      by_cases hp : sw.pushedState
      · simp only [hp, if_true]; exact ⟨.nothing, h⟩
      · simp only [hp, Bool.false_eq_true, if_false]
        cases on with
        | true => simp only [sampleOf, if_true]; exact ⟨.overridePush rfl, ⟨h.interval, h.was, h.hold⟩⟩
        | false =>
          simp only [sampleOf, Bool.false_eq_true, if_false, Switch.pushActions]
          by_cases hc : c.actionsHold = []
          · simp only [hc, ne_eq, not_true_eq_false, if_false, filter_true]
            exact ⟨.push hc, ⟨h.interval, h.was, h.hold⟩⟩
          · simp only [ne_eq, hc, not_false_eq_true, if_true]
            exact ⟨.nothing, ⟨h.interval, h.was, fun e => absurd e hc⟩⟩
    have e : Switch.process c sw (sampleOf on true now) = if sw.holdActive then
        (if (Switch.checkHold c sw (sampleOf on true now)).1 then
          ((Switch.checkHold c sw (sampleOf on true now)).2.1, (Switch.checkHold c sw (sampleOf on true now)).2.2)
         else Switch.processPushed c (Switch.checkHold c sw (sampleOf on true now)).2.1 (sampleOf on true now))
        else Switch.processPushed c sw (sampleOf on true now) := by
      simp [Switch.process, sampleOf]
    rw [e]
    obtain ⟨k1, k2⟩ := hk
    split
    · split
      · rename_i hx
        rw [k2, if_pos hx]; exact ⟨.hold, k1⟩
      · exact hpp _ k1
    · exact hpp _ h

/-- The calls as seen by the tuner callback. -/
theorem applyOverride_own (k : Nat) (pb : Bool) (es : List Switch.Eff) (h : ∀ e ∈ es, (∃ a, e = .push a) ∨ ∃ a, e = .release a) :
    Tuner.applyOverride k pb es = (pb, es.map (.own k)) := by
  induction es with
  | nil => rfl
  | cons e es ih =>
    have ih := ih (fun x hx => h x (by simp [hx]))
    rcases h e (by simp) with ⟨a, rfl⟩ | ⟨a, rfl⟩ <;> simp [Tuner.applyOverride, ih]

/-- What a switch has the application do: nothing, leave the tuner, or calls of its own actions. -/
inductive OvForm (c : Switch.Config) (on : Bool) (k : Nat) : List Tuner.OverrideEff → Prop where
  | nothing : OvForm c on k []
  | leave : on = true → OvForm c on k [.leave]
  | own (es : List Switch.Eff) : Form c on es → (∀ e ∈ es, (∃ a, e = .push a) ∨ ∃ a, e = .release a) → OvForm c on k (es.map (.own k))

theorem form_own {c : Switch.Config} {on : Bool} {es : List Switch.Eff} (h : Form c on es) :
    (es = [.overridePush] ∧ on = true) ∨ (es = [.overrideRelease] ∧ on = true) ∨ ∀ e ∈ es, (∃ a, e = .push a) ∨ ∃ a, e = .release a := by
  have click : ∀ l : List Nat, ∀ e ∈ l.flatMap (fun a => [Switch.Eff.push a, .release a]), (∃ a, e = .push a) ∨ ∃ a, e = .release a := by
    intro l e he
    simp only [List.mem_flatMap, List.mem_cons, List.not_mem_nil, or_false] at he
    obtain ⟨a, _, rfl | rfl⟩ := he
    · exact Or.inl ⟨a, rfl⟩
    · exact Or.inr ⟨a, rfl⟩
  cases h with
  | nothing => exact Or.inr (Or.inr (by simp))
  | overridePush h => exact Or.inl ⟨rfl, h⟩
  | overrideRelease h => exact Or.inr (Or.inl ⟨rfl, h⟩)
  | hold => exact Or.inr (Or.inr (click _))
  | click _ => exact Or.inr (Or.inr (click _))
  | push _ =>
    refine Or.inr (Or.inr fun e he => ?_)
    simp only [List.mem_map] at he
    obtain ⟨a, _, rfl⟩ := he
    exact Or.inl ⟨a, rfl⟩
  | release _ =>
    refine Or.inr (Or.inr fun e he => ?_)
    simp only [List.mem_map] at he
    obtain ⟨a, _, rfl⟩ := he
    exact Or.inr ⟨a, rfl⟩

theorem override_eq (ov : Tuner.OverrideState) (pushed : Bool) (now : Int) :
    ({ pushed := pushed, now := now, override := ov.override false } : Switch.Sample) = sampleOf ov.on pushed now := by
  unfold sampleOf Tuner.OverrideState.override
  simp

/-- One `process()` of a switch, with the tuner callback. -/
theorem overrideStep_form {ov : Tuner.OverrideState} {k : Nat} {c : Switch.Config} {sw : Switch.State} (hc : switches[k]? = some c)
    (hs : ov.switches[k]? = some sw) (hr : c.holdRepeat = false) (h : SwOk c sw) (pushed : Bool) (now : Int) :
    let r := Tuner.overrideStep switches false ov (.process k { pushed, now })
    OvForm c ov.on k r.2 ∧ r.1.on = ov.on ∧
    r.1.switches = ov.switches.set k (Switch.process c sw (sampleOf ov.on pushed now)).1 ∧
    SwOk c (Switch.process c sw (sampleOf ov.on pushed now)).1 ∧
    r.2 = (Tuner.applyOverride k ov.pushedBefore (Switch.process c sw (sampleOf ov.on pushed now)).2).2 ∧
    r.1.pushedBefore = (Tuner.applyOverride k ov.pushedBefore (Switch.process c sw (sampleOf ov.on pushed now)).2).1 := by
  obtain ⟨f1, f2⟩ := process_form c hr sw h ov.on pushed now
  simp only [Tuner.overrideStep, hc, hs, override_eq]
  refine ⟨?_, trivial, trivial, f2, trivial, trivial⟩
  rcases form_own f1 with ⟨e, _⟩ | ⟨e, ho⟩ | e
  · rw [e]; exact .nothing
  · rw [e]
    simp only [Tuner.applyOverride]
    cases ov.pushedBefore
    · exact .nothing
    · exact .leave ho
  · rw [applyOverride_own _ _ _ e]
    exact .own _ f1 e

/-! ### Everything -/

/-- The tuner state by messages. -/
def track (on : Bool) (ms : List Msg) : Bool :=
  ms.foldl (fun on m => if m = tuner true then true else if m = tuner false then false else on) on

theorem track_append (on : Bool) (a b : List Msg) : track on (a ++ b) = track (track on a) b := by
  simp [track, List.foldl_append]

theorem track_none (on : Bool) (ms : List Msg) (h : ∀ m ∈ ms, ∀ s, m ≠ tuner s) : track on ms = on := by
  induction ms with
  | nil => rfl
  | cons m ms ih =>
    show track (if m = tuner true then true else if m = tuner false then false else on) ms = on
    rw [if_neg (h m (by simp) true), if_neg (h m (by simp) false)]
    exact ih (fun x hx => h x (by simp [hx]))

theorem track_tuner (on s : Bool) : track on [tuner s] = s := by cases s <;> rfl

theorem actionMsgs_tuner {a : Nat} (ha : a ≠ 6) {m : Msg} (hm : m ∈ actionMsgs a) (s : Bool) : m ≠ tuner s := by
  intro e
  subst e
  unfold actionMsgs at hm
  split at hm
  · rename_i h
    simp only [effect, tuner, cc, List.mem_cons, List.not_mem_nil, or_false, Msg.cc.injEq] at hm
    omega
  · split at hm
    · simp [tap, tuner, cc] at hm
    · split at hm
      · simp [previousBank, tuner, cc] at hm
      · split at hm
        · simp [nextBank, tuner, cc] at hm
        · split at hm
          · simp only [rig, tuner, cc, List.mem_cons, List.not_mem_nil, or_false, Msg.cc.injEq] at hm
            omega
          · simp at hm

theorem call_track {st : State} (h : ActsOk st.ov.on st.acts) (now : Int) (a : Nat) (d : Bool) :
    (call st now a d).1.ov.on = track st.ov.on (call st now a d).2 := by
  obtain ⟨_, c2, _, c4, c5⟩ := call_ok h now a d
  by_cases ha : a = 6
  · rcases c5 ha with ⟨e1, e2⟩ | ⟨s, e1, e2⟩
    · rw [e1, e2]; rfl
    · rw [e1, e2, track_tuner]
  · rw [c4 ha, track_none _ _ (fun m hm s => actionMsgs_tuner ha (c2 m hm) s)]

/-- Leaving the tuner. -/
def leaveSt (st : State) : State :=
  tunerValue { st with acts := { st.acts with tuner := (Button.step tunerButton st.acts.tuner (.value (some 0))).1 } } 0

theorem perform_leave (now : Int) (st : State) (es : List Tuner.OverrideEff) :
    perform now st (.leave :: es) = ((perform now (leaveSt st) es).1, tuner false :: (perform now (leaveSt st) es).2) := rfl

theorem leave_ok {st : State} (h : ActsOk st.ov.on st.acts) :
    Called st (leaveSt st) (fun _ => False) ∧ (leaveSt st).ov.on = false ∧
    (st.acts.tap.cb.state = false → (leaveSt st).acts.tap.cb.state = false) := by
  obtain ⟨a1, a2, _⟩ := tuner_value h.tuner (some 0)
  have hk : ActsOk st.ov.on ({ st with acts := { st.acts with tuner := (Button.step tunerButton st.acts.tuner (.value (some 0))).1 } } : State).acts :=
    ⟨h.fx, h.tap, a1, h.rig, h.shared⟩
  obtain ⟨b1, b2, b3, b4, b5, b6, b7, b8⟩ := tunerValue_ok hk a2
  exact ⟨⟨by rw [show (leaveSt st).ov.on = ((0 : Int) == 1) from b1]; exact b4, b2, b3, fun _ _ => b5 (by decide),
    fun k _ => ⟨(b6 k).period, (b6 k).sent⟩⟩, b1, b8⟩

/-- Calls of own actions and leaving the tuner. -/
def Only (as : List Nat) (leave : Bool) (es : List Tuner.OverrideEff) : Prop :=
  ∀ e ∈ es, (leave = true ∧ e = .leave) ∨ ∃ k, ∃ a ∈ as, e = .own k (.push a) ∨ e = .own k (.release a)

theorem perform_ok (as : List Nat) (leave : Bool) (now : Int) (es : List Tuner.OverrideEff) (he : Only as leave es) (st : State)
    (h : ActsOk st.ov.on st.acts) :
    Called st (perform now st es).1 (fun k => ∃ a ∈ as, k = owner a) ∧
    (∀ m ∈ (perform now st es).2, (leave = true ∧ m = tuner false) ∨ ∃ a ∈ as, m ∈ actionMsgs a) ∧
    (perform now st es).1.ov.on = track st.ov.on (perform now st es).2 ∧
    (4 ∉ as → st.acts.tap.cb.state = false → (perform now st es).1.acts.tap.cb.state = false) := by
  induction es generalizing st with
  | nil => exact ⟨⟨h, rfl, rfl, fun x y => x y, fun _ _ => Frame.rfl⟩, by simp [perform], rfl, fun _ x => x⟩
  | cons e es ih =>
    have ih := ih (fun x hx => he x (by simp [hx]))
    rcases he e (by simp) with ⟨hl, rfl⟩ | ⟨k, a, ha, hpr⟩
    · obtain ⟨c1, c2, c3⟩ := leave_ok h
      obtain ⟨i1, i2, i3, i4⟩ := ih _ c1.acts
      rw [perform_leave]
      refine ⟨⟨i1.acts, i1.switches.trans c1.switches, i1.pushed.trans c1.pushed, fun x y => i1.off (c1.off x) y,
        fun k hk => (c1.frame k id).trans (i1.frame k hk)⟩, ?_, ?_, fun n x => i4 n (c3 x)⟩
      · intro m hm
        simp only [List.mem_cons] at hm
        rcases hm with rfl | hm
        · exact Or.inl ⟨hl, rfl⟩
        · exact i2 m hm
      · rw [i3, show tuner false :: (perform now (leaveSt st) es).2 = [tuner false] ++ (perform now (leaveSt st) es).2 from rfl,
          track_append, track_tuner, c2]
    · have key : ∀ d, Called st (perform now (call st now a d).1 es).1 (fun k => ∃ a ∈ as, k = owner a) ∧
          (∀ m ∈ (call st now a d).2 ++ (perform now (call st now a d).1 es).2, (leave = true ∧ m = tuner false) ∨ ∃ a ∈ as, m ∈ actionMsgs a) ∧
          (perform now (call st now a d).1 es).1.ov.on =
            track st.ov.on ((call st now a d).2 ++ (perform now (call st now a d).1 es).2) ∧
          (4 ∉ as → st.acts.tap.cb.state = false → (perform now (call st now a d).1 es).1.acts.tap.cb.state = false) := by
        intro d
        obtain ⟨c1, c2, c3, _⟩ := call_ok h now a d
        obtain ⟨i1, i2, i3, i4⟩ := ih _ c1.acts
        refine ⟨⟨i1.acts, i1.switches.trans c1.switches, i1.pushed.trans c1.pushed, fun x y => i1.off (c1.off x) y,
          fun k hk => (c1.frame k (fun e => hk ⟨a, ha, e⟩)).trans (i1.frame k hk)⟩, ?_, ?_, ?_⟩
        · intro m hm
          rw [List.mem_append] at hm
          rcases hm with hm | hm
          · exact Or.inr ⟨a, ha, c2 m hm⟩
          · exact i2 m hm
        · rw [i3, track_append, call_track h]
        · intro n x
          exact i4 n (c3 (fun e => n (e ▸ ha)) x)
      rcases hpr with rfl | rfl
      · exact key true
      · exact key false

/-- A tap. -/
theorem tap_click {st : State} (h : ActsOk st.ov.on st.acts) (hq : st.acts.tap.cb.state = false) (now : Int) :
    (call (call st now 4 true).1 now 4 false).1.acts.tap.cb.state = false ∧
    (call st now 4 true).2 ++ (call (call st now 4 true).1 now 4 false).2 = tap := by
  obtain ⟨a1, a2, a3⟩ := tap_setState h.tap true
  obtain ⟨_, b2, b3⟩ := tap_setState a1 false
  have e1 : (call st now 4 true).2 = [cc 30 1] := by
    show msgs Button.tapTempoParam (Button.setState Button.tapTempo st.acts.tap true).2 = _
    rw [a3, hq]; rfl
  have e2 : (call (call st now 4 true).1 now 4 false).2 = [cc 30 0] := by
    show msgs Button.tapTempoParam (Button.setState Button.tapTempo (Button.setState Button.tapTempo st.acts.tap true).1 false).2 = _
    rw [b3, a2]; rfl
  exact ⟨b2, by rw [e1, e2]; rfl⟩

/-- What holds between two events. -/
structure Inv (st : State) : Prop where
  acts : ActsOk st.ov.on st.acts
  off : st.ov.on = false → st.acts.tuner.cb.state = false
  quiet : st.acts.tap.cb.state = false
  sw : ∀ (k : Nat) c, switches[k]? = some c → ∃ s, st.ov.switches[k]? = some s ∧ SwOk c s

theorem noRepeat : ∀ (k : Nat) c, switches[k]? = some c → c.holdRepeat = false := by
  intro k c h
  have : ∀ c ∈ switches, c.holdRepeat = false := by decide
  exact this c (List.mem_of_getElem? h)

theorem owners : ∀ (k : Nat) c, switches[k]? = some c → ∀ a ∈ c.actions ++ c.actionsHold, owner a = k := by
  intro k c h
  have hk : k < 11 := by
    have := (List.getElem?_eq_some_iff.mp h).1
    exact this
  rcases k with _ | _ | _ | _ | _ | _ | _ | _ | _ | _ | _ | k
  all_goals first | omega | (simp [switches] at h; subst h; decide)

theorem allowed : ∀ (k : Nat) c, switches[k]? = some c → ∀ a ∈ c.actions ++ c.actionsHold, ∀ m ∈ actionMsgs a, m ∈ mayWrite k := by
  intro k c h
  have hk : k < 11 := by
    have := (List.getElem?_eq_some_iff.mp h).1
    exact this
  rcases k with _ | _ | _ | _ | _ | _ | _ | _ | _ | _ | _ | k
  all_goals first | omega | (simp [switches] at h; subst h; decide)

theorem form_actions {c : Switch.Config} {on : Bool} {es : List Switch.Eff} (h : Form c on es) (k : Nat)
    (ho : ∀ e ∈ es, (∃ a, e = .push a) ∨ ∃ a, e = .release a) : Only (c.actions ++ c.actionsHold) false (es.map (.own k)) := by
  have click : ∀ l : List Nat, (∀ a ∈ l, a ∈ c.actions ++ c.actionsHold) →
      Only (c.actions ++ c.actionsHold) false ((l.flatMap (fun a => [Switch.Eff.push a, .release a])).map (.own k)) := by
    intro l hl e he
    simp only [List.mem_map, List.mem_flatMap, List.mem_cons, List.not_mem_nil, or_false] at he
    obtain ⟨x, ⟨a, ha, rfl | rfl⟩, rfl⟩ := he
    · exact Or.inr ⟨k, a, hl a ha, Or.inl rfl⟩
    · exact Or.inr ⟨k, a, hl a ha, Or.inr rfl⟩
  cases h with
  | nothing => intro e he; simp at he
  | overridePush _ => rcases ho .overridePush (by simp) with ⟨a, e⟩ | ⟨a, e⟩ <;> simp at e
  | overrideRelease _ => rcases ho .overrideRelease (by simp) with ⟨a, e⟩ | ⟨a, e⟩ <;> simp at e
  | hold => exact click _ (fun a ha => by simp [ha])
  | click _ => exact click _ (fun a ha => by simp [ha])
  | push _ =>
    intro e he
    simp only [List.mem_map] at he
    obtain ⟨x, ⟨a, ha, rfl⟩, rfl⟩ := he
    exact Or.inr ⟨k, a, by simp [ha], Or.inl rfl⟩
  | release _ =>
    intro e he
    simp only [List.mem_map] at he
    obtain ⟨x, ⟨a, ha, rfl⟩, rfl⟩ := he
    exact Or.inr ⟨k, a, by simp [ha], Or.inr rfl⟩

/-- What holds after an event of the switch `k`. -/
structure Stepped (k : Nat) (st st' : State) (out : List Msg) : Prop where
  inv : Inv st'
  on : st'.ov.on = track st.ov.on out
  msgs : ∀ m ∈ out, m ∈ mayWrite k ∨ (st.ov.on = true ∧ m = tuner false)
  frame : ∀ j, j ≠ k → Frame j st.acts st'.acts
  switches : ∀ j, j ≠ k → st'.ov.switches[j]? = st.ov.switches[j]?

/-- The event of a switch, unfolded. -/
theorem step_process {st : State} {k : Nat} {c : Switch.Config} {sw : Switch.State} (hc : switches[k]? = some c)
    (hs : st.ov.switches[k]? = some sw) (pushed : Bool) (now : Int) :
    step st (.process k pushed now) =
      perform now
        ⟨⟨st.ov.on, (Tuner.applyOverride k st.ov.pushedBefore (Switch.process c sw (sampleOf st.ov.on pushed now)).2).1,
          st.ov.switches.set k (Switch.process c sw (sampleOf st.ov.on pushed now)).1⟩, st.acts⟩
        (Tuner.applyOverride k st.ov.pushedBefore (Switch.process c sw (sampleOf st.ov.on pushed now)).2).2 := by
  simp only [step, Tuner.overrideStep, hc, hs, override_eq]

theorem click_up (now : Int) (st : State) :
    perform now st (([4, 5].flatMap fun a => [Switch.Eff.push a, .release a]).map (.own 4)) =
      ((call (call st now 4 true).1 now 4 false).1, (call st now 4 true).2 ++ (call (call st now 4 true).1 now 4 false).2) := by
  have h5 : ∀ st d, call st now 5 d = (st, []) := by intro st d; rfl
  simp [perform, h5]

theorem process_step {st : State} (h : Inv st) {k : Nat} {c : Switch.Config} (hc : switches[k]? = some c) (pushed : Bool) (now : Int) :
    Stepped k st (step st (.process k pushed now)).1 (step st (.process k pushed now)).2 := by
  obtain ⟨sw, hs, hw⟩ := h.sw k c hc
  obtain ⟨f1, _, _, f4, f5, _⟩ := overrideStep_form (ov := st.ov) hc hs (noRepeat k c hc) hw pushed now
  rw [f5] at f1
  rw [step_process hc hs]
  generalize Tuner.applyOverride k st.ov.pushedBefore (Switch.process c sw (sampleOf st.ov.on pushed now)).2 = ao at f1
  generalize (Switch.process c sw (sampleOf st.ov.on pushed now)).1 = sw' at f4
  obtain ⟨pb, effs⟩ := ao
  simp only at f1 ⊢
  have ha : ActsOk (⟨⟨st.ov.on, pb, st.ov.switches.set k sw'⟩, st.acts⟩ : State).ov.on
      (⟨⟨st.ov.on, pb, st.ov.switches.set k sw'⟩, st.acts⟩ : State).acts := h.acts
  have hin : k < st.ov.switches.length := (List.getElem?_eq_some_iff.mp hs).1
  have hsw : ∀ (j : Nat) c', switches[j]? = some c' → ∃ s, (st.ov.switches.set k sw')[j]? = some s ∧ SwOk c' s := by
    intro j c' hj
    by_cases e : j = k
    · subst e
      rw [hc] at hj
      cases hj
      exact ⟨sw', by simp [hin], f4⟩
    · obtain ⟨s, s1, s2⟩ := h.sw j c' hj
      exact ⟨s, by rw [List.getElem?_set_ne (by omega)]; exact s1, s2⟩
  have key : ∀ r : State × List Msg, Called ⟨⟨st.ov.on, pb, st.ov.switches.set k sw'⟩, st.acts⟩ r.1 (fun j => j = k) →
      r.1.acts.tap.cb.state = false → r.1.ov.on = track st.ov.on r.2 →
      (∀ m ∈ r.2, m ∈ mayWrite k ∨ (st.ov.on = true ∧ m = tuner false)) → Stepped k st r.1 r.2 := by
    intro r r1 r2 r3 r4
    refine ⟨⟨r1.acts, r1.off h.off, r2, ?_⟩, r3, r4, fun j hj => r1.frame j hj, fun j hj => ?_⟩
    · rw [r1.switches]; exact hsw
    · rw [r1.switches]
      simp only
      rw [List.getElem?_set_ne (by omega)]
  cases f1 with
  | nothing => exact key _ ⟨h.acts, rfl, rfl, fun x y => x y, fun _ _ => Frame.rfl⟩ h.quiet rfl (by simp [perform])
  | leave ho =>
    have := perform_ok [] true now [.leave] (fun e he => by simp at he; exact Or.inl ⟨rfl, he⟩) _ ha
    obtain ⟨p1, p2, p3, p4⟩ := this
    refine key _ ⟨p1.acts, p1.switches, p1.pushed, p1.off, fun j hj => p1.frame j (by simp)⟩ (p4 (by simp) h.quiet) p3 ?_
    intro m hm
    rcases p2 m hm with ⟨_, e⟩ | ⟨a, ha, _⟩
    · exact Or.inr ⟨ho, e⟩
    · simp at ha
  | own es g1 g2 =>
    have := perform_ok _ false now _ (form_actions g1 k g2) _ ha
    obtain ⟨p1, p2, p3, p4⟩ := this
    refine key _ ⟨p1.acts, p1.switches, p1.pushed, p1.off, fun j hj => p1.frame j ?_⟩ ?_ p3 ?_
    · rintro ⟨a, ha, e⟩
      exact hj (by rw [e]; exact owners k c hc a ha)
    · by_cases h4 : 4 ∈ c.actions ++ c.actionsHold
      · have hk : k = 4 := (owners k c hc 4 h4).symm
        subst hk
        have hcc : c = { actions := [4, 5], actionsHold := [6] } := by
          simp [switches] at hc; exact hc.symm
        subst hcc
        cases g1 with
        | nothing => exact h.quiet
        | overridePush _ => exact h.quiet
        | overrideRelease _ => exact h.quiet
        | hold => exact (perform_ok [6] false now _ (by
            intro e he
            simp at he
            rcases he with rfl | rfl
            · exact Or.inr ⟨4, 6, by simp, Or.inl rfl⟩
            · exact Or.inr ⟨4, 6, by simp, Or.inr rfl⟩) _ ha).2.2.2 (by simp) h.quiet
        | click _ =>
          rw [show (Switch.Config.mk [4, 5] [6] false).actions = [4, 5] from rfl, click_up]
          exact (tap_click ha h.quiet now).1
        | push e => simp at e
        | release e => simp at e
      · exact p4 h4 h.quiet
    · intro m hm
      rcases p2 m hm with ⟨e, _⟩ | ⟨a, ha, e⟩
      · simp at e
      · exact Or.inl (allowed k c hc a ha m e)

/-! ### All events -/

theorem inv_initial : Inv initial := by
  refine ⟨⟨fun i _ => ⟨rfl, rfl, rfl, rfl, fun _ => rfl⟩, ⟨rfl, rfl, rfl⟩, ⟨rfl, rfl, rfl⟩, fun i => ⟨rfl, rfl, Or.inl rfl⟩, rfl⟩,
    fun _ => rfl, rfl, fun k c hc => ?_⟩
  have : initial.ov.switches[k]? = (switches[k]?).map fun _ => Switch.initial holdTime := by
    simp [initial]
  rw [hc] at this
  exact ⟨_, this, ⟨rfl, rfl, fun _ => rfl⟩⟩

/-- An event which is not of a switch. -/
theorem report_fx {slot : Nat} (hs : slot < 4) (o : Effects.Op)
    (ho : (∃ v, o = .value v) ∨ (∃ t, o = .fxtype t)) (on : Bool) (a : Acts) (ha : ActsOk on a) :
    ActsOk on (withFx a slot ((a.fx slot).other o)).1 ∧ ∀ k, Frame k a (withFx a slot ((a.fx slot).other o)).1 := by
  obtain ⟨x1, x2, _⟩ := other_ok (ha.fx slot hs) o (on' := on) (lit' := a.lit slot)
    (by rcases ho with ho | ho; exact Or.inl ho; exact Or.inr (Or.inl ho)) (fun e => Or.inl ⟨e, rfl⟩)
  exact ⟨withFx_ok ha _ x1, fun k => withFx_frame a _ (fun _ => x2)⟩

theorem rig_draw (i : Nat) (x : Rigs.SelState) :
    ((rigSelect i).updateDisplays x).sent = x.sent ∧ ((rigSelect i).updateDisplays x).rigOff = x.rigOff ∧
    ((rigSelect i).updateDisplays x).bankOff = x.bankOff := by
  unfold Rigs.RigSelect.updateDisplays
  repeat' split
  all_goals exact ⟨rfl, rfl, rfl⟩

/-- What holds after an event which is not of a switch. -/
structure Reported (st st' : State) (on : Bool) : Prop where
  inv : Inv st'
  on : st'.ov.on = on
  frame : ∀ j, Frame j st.acts st'.acts
  switches : st'.ov.switches = st.ov.switches

theorem lose_ok (on : Bool) (a : Acts) (ha : ActsOk on a) {slot : Nat} (hs : slot < 4) :
    ActsOk on (loseFx a slot) ∧ ∀ k, Frame k a (loseFx a slot) := by
  obtain ⟨x1, x2⟩ := report_fx hs (.fxtype none) (Or.inr ⟨none, rfl⟩) on a ha
  obtain ⟨y1, y2⟩ := report_fx hs (.value none) (Or.inl ⟨none, rfl⟩) on _ x1
  exact ⟨y1, fun k => (x2 k).trans (y2 k)⟩

theorem report_step {st : State} (h : Inv st) (e : Event) (he : ∀ k p n, e ≠ .process k p n) :
    Reported st (step st e).1 (tunerAfter st.ov.on e []) ∧ (step st e).2 = [] := by
  cases e with
  | process k p n => exact absurd rfl (he k p n)
  | effectState slot v =>
    simp only [step]
    split
    · rename_i hs
      obtain ⟨x1, x2⟩ := report_fx hs (.value (some v)) (Or.inl ⟨_, rfl⟩) _ _ h.acts
      exact ⟨⟨⟨x1, h.off, h.quiet, h.sw⟩, rfl, x2, rfl⟩, rfl⟩
    · exact ⟨⟨h, rfl, fun _ => Frame.rfl, rfl⟩, rfl⟩
  | effectType slot t =>
    simp only [step]
    split
    · rename_i hs
      obtain ⟨x1, x2⟩ := report_fx hs (.fxtype (some t)) (Or.inr ⟨_, rfl⟩) _ _ h.acts
      exact ⟨⟨⟨x1, h.off, h.quiet, h.sw⟩, rfl, x2, rfl⟩, rfl⟩
    · exact ⟨⟨h, rfl, fun _ => Frame.rfl, rfl⟩, rfl⟩
  | tuner v =>
    obtain ⟨a1, a2, _⟩ := tuner_value h.acts.tuner (some v)
    have hk : ActsOk st.ov.on ({ st with acts := { st.acts with tuner := (Button.step tunerButton st.acts.tuner (.value (some v))).1 } } : State).acts :=
      ⟨h.acts.fx, h.acts.tap, a1, h.acts.rig, h.acts.shared⟩
    obtain ⟨b1, b2, b3, b4, b5, b6, b7, b8⟩ := tunerValue_ok hk a2
    refine ⟨⟨⟨?_, fun y => b5 ?_, b8 h.quiet, ?_⟩, b1, fun j => ⟨(b6 j).period, (b6 j).sent⟩, b2⟩, rfl⟩
    · show ActsOk (tunerValue _ v).ov.on _
      rw [b1]; exact b4
    · have y' : (tunerValue { st with acts := { st.acts with tuner := (Button.step tunerButton st.acts.tuner (.value (some v))).1 } } v).ov.on = false := y
      rw [b1] at y'
      simpa using y'
    · show ∀ (k : Nat) c, switches[k]? = some c → ∃ s, (tunerValue _ v).ov.switches[k]? = some s ∧ SwOk c s
      rw [b2]; exact h.sw
  | rig v =>
    refine ⟨⟨⟨⟨h.acts.fx, h.acts.tap, h.acts.tuner, fun i => ?_, h.acts.shared⟩, h.off, h.quiet, h.sw⟩, rfl, fun j => ⟨fun _ => rfl, fun _ => ?_⟩, rfl⟩, rfl⟩
    · obtain ⟨d1, d2, d3⟩ := rig_draw i { st.acts.rig i with value := some v }
      obtain ⟨r1, r2, r3⟩ := h.acts.rig i
      refine ⟨d2.trans r1, d3.trans r2, ?_⟩
      simp only [step, d1]
      exact r3
    · exact (rig_draw (j - 5) { st.acts.rig (j - 5) with value := some v }).1
  | lost =>
    obtain ⟨x0, y0⟩ := lose_ok _ _ h.acts (slot := 0) (by omega)
    obtain ⟨x1, y1⟩ := lose_ok _ _ x0 (slot := 1) (by omega)
    obtain ⟨x2, y2⟩ := lose_ok _ _ x1 (slot := 2) (by omega)
    obtain ⟨x3, y3⟩ := lose_ok _ _ x2 (slot := 3) (by omega)
    obtain ⟨a1, a2, _, a4⟩ := tuner_value x3.tuner none
    have hf : ∀ k, Frame k st.acts (loseFx (loseFx (loseFx (loseFx st.acts 0) 1) 2) 3) :=
      fun k => (((y0 k).trans (y1 k)).trans (y2 k)).trans (y3 k)
    exact ⟨⟨⟨⟨x3.fx, x3.tap, a1, x3.rig, x3.shared⟩, fun y => a4 (h.off y) (fun n e => by simp at e), h.quiet, h.sw⟩, rfl,
      fun k => ⟨(hf k).period, (hf k).sent⟩, rfl⟩, rfl⟩

/-- Any event. -/
structure Any (st st' : State) (e : Event) (out : List Msg) : Prop where
  inv : Inv st'
  on : st'.ov.on = tunerAfter st.ov.on e out
  frame : ∀ j, isOf j e = false → Frame j st.acts st'.acts
  switches : ∀ j, isOf j e = false → st'.ov.switches[j]? = st.ov.switches[j]?
  own : ∀ k p n, e = .process k p n → ∀ m ∈ out, m ∈ mayWrite k ∨ (st.ov.on = true ∧ m = tuner false)
  silent : (∀ k p n, e ≠ .process k p n) → out = []

theorem any_step {st : State} (h : Inv st) (e : Event) : Any st (step st e).1 e (step st e).2 := by
  by_cases he : ∀ k p n, e ≠ .process k p n
  · obtain ⟨r1, r2⟩ := report_step h e he
    exact ⟨r1.inv, by rw [r2]; exact r1.on, fun j _ => r1.frame j, fun j _ => by rw [r1.switches], fun k p n e' => absurd e' (he k p n),
      fun _ => r2⟩
  · cases e with
    | process k p n =>
      cases hc : switches[k]? with
      | none =>
        have e1 : step st (.process k p n) = (st, []) := by simp only [step, Tuner.overrideStep, hc]; rfl
        rw [e1]
        exact ⟨h, rfl, fun _ _ => Frame.rfl, fun _ _ => rfl, fun _ _ _ _ m hm => by simp at hm, fun _ => rfl⟩
      | some c =>
        have s := process_step h hc p n
        have hne : ∀ j, isOf j (.process k p n) = false → j ≠ k := by
          intro j hj e
          subst e
          simp [isOf] at hj
        refine ⟨s.inv, s.on, fun j hj => s.frame j (hne j hj), fun j hj => s.switches j (hne j hj), fun k' p' n' e' => ?_, fun x => absurd rfl (x k p n)⟩
        cases e'
        exact s.msgs
    | _ => exact absurd (fun k p n x => by cases x) he

theorem inv_run {st : State} (h : Inv st) (es : List Event) : Inv (run st es).2 := by
  induction es generalizing st with
  | nil => exact h
  | cons e es ih => exact ih (any_step h e).inv

end PySwitch.Shipped
