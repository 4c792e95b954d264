import Verif.Lemmas.ShippedUse
import Verif.Lemmas.VirtualParams
import Verif.Props.Mapping
import Verif.Spec.Stage

/-
PySwitch's side of `Model/Stage.lean`: what events and reports do to one effect slot.
-/
namespace PySwitch.Stage
open PySwitch PySwitch.Wire PySwitch.Shipped PySwitch.Shipped.Spec

def onOf : Option Int → Bool
  | some v => decide (v ≥ 1)
  | none => false

structure Weak (x : Fx) : Prop where
  current : x.cb.base.currentValue = some x.cb.base.value
  loaded : ∀ t, x.cb.fxtype = some t → Effects.categoryOf (some t) ≠ 0

theorem Weak.cat {x : Fx} (h : Weak x) (hk : x.cb.fxtype ≠ none) : Effects.categoryOf x.cb.fxtype ≠ 0 := by
  cases ht : x.cb.fxtype with
  | none => exact absurd ht hk
  | some t => exact h.loaded t ht

/-- The state which is shown is the one which is known. -/
def Right (x : Fx) : Prop := x.cb.base.state = onOf x.cb.base.value

/-- It is, or it will be when the tuner is left or the type is known. -/
def Sound (on : Bool) (x : Fx) : Prop := on = true ∨ x.cb.fxtype = none ∨ Right x

/-- A new value is evaluated for all types. -/
theorem cb_eval (cb : Effects.State) (h : cb.base.currentValue ≠ some cb.base.value) :
    (Effects.updateDisplays fxConfig cb).1.base.state = onOf cb.base.value := by
  simp only [Effects.updateDisplays]
  have d := drawn (Effects.baseConfig fxConfig (Effects.categoryOf cb.fxtype))
    (if Effects.categoryOf cb.fxtype = Effects.CATEGORY_NONE then { cb.base with state := false } else cb.base)
  rw [d.eval (by split <;> exact h)]
  have : (if Effects.categoryOf cb.fxtype = Effects.CATEGORY_NONE then { cb.base with state := false } else cb.base).value = cb.base.value := by
    split <;> rfl
  rw [this]
  cases cb.base.value <;> rfl

/-- A state as result of drawing. -/
theorem weak_drawn {period : PeriodCounter} {cb : Effects.State} (hl : ∀ t, cb.fxtype = some t → Effects.categoryOf (some t) ≠ 0) :
    Weak ⟨period, (Effects.updateDisplays fxConfig cb).1⟩ := by
  have d := cbDrawn cb
  exact ⟨by rw [d.current, d.value], fun t h => hl t (by rw [← d.fxtype]; exact h)⟩

theorem right_drawn {period : PeriodCounter} {cb : Effects.State} (hs : (Effects.updateDisplays fxConfig cb).1.base.state = onOf cb.base.value) :
    Right ⟨period, (Effects.updateDisplays fxConfig cb).1⟩ := by
  have d := cbDrawn cb
  unfold Right
  rw [hs, d.value]

theorem other_value {x : Fx} (h : Weak x) (v : Int) :
    Weak (x.other (.value (some v))).1 ∧ (x.cb.fxtype ≠ none → Right x → Right (x.other (.value (some v))).1) := by
  refine ⟨weak_drawn (cb := { x.cb with base := { x.cb.base with value := some v } }) h.loaded, fun hk hr => ?_⟩
  have hc := h.cat hk
  refine right_drawn (cb := { x.cb with base := { x.cb.base with value := some v } }) ?_
  by_cases hcur : x.cb.base.currentValue = some (some v)
  · refine ((cbDrawn ({ x.cb with base := { x.cb.base with value := some v } } : Effects.State)).same hc hcur).trans ?_
    have : x.cb.base.value = some v := by
      have := h.current; rw [hcur] at this; exact (Option.some.inj this).symm
    show x.cb.base.state = onOf (some v)
    rw [hr, this]
  · exact cb_eval _ hcur

theorem other_type {x : Fx} (h : Weak x) {t : Int} (ht : Effects.categoryOf (some t) ≠ 0) :
    Weak (x.other (.fxtype (some t))).1 ∧ (Right x → Right (x.other (.fxtype (some t))).1) := by
  refine ⟨weak_drawn (cb := { x.cb with fxtype := some t }) (fun t' e => by simp at e; subst e; exact ht), fun hr => ?_⟩
  exact right_drawn (cb := { x.cb with fxtype := some t })
    (((cbDrawn ({ x.cb with fxtype := some t } : Effects.State)).same ht h.current).trans hr)

theorem other_reset (x : Fx) : (Weak x → Weak (x.other .reset).1) ∧ Right (x.other .reset).1 := by
  refine ⟨fun h => weak_drawn (cb := { Effects.reset x.cb with base := { (Effects.reset x.cb).base with state := false } }) h.loaded,
    right_drawn (cb := { Effects.reset x.cb with base := { (Effects.reset x.cb).base with state := false } }) (cb_eval _ ?_)⟩
  simp [Effects.reset, Binary.reset]

theorem other_fields (x : Fx) (o : Effects.Op) (ho : (∃ v, o = .value v) ∨ (∃ t, o = .fxtype t) ∨ o = .reset) :
    (x.other o).1.cb.fxtype = (match o with | .fxtype t => t | _ => x.cb.fxtype) ∧
    (x.other o).1.cb.base.value = (match o with | .value v => v | _ => x.cb.base.value) := by
  rcases ho with ⟨v, rfl⟩ | ⟨t, rfl⟩ | rfl
  · exact ⟨(cbDrawn _).fxtype, (cbDrawn _).value⟩
  · exact ⟨(cbDrawn _).fxtype, (cbDrawn _).value⟩
  · exact ⟨(cbDrawn _).fxtype, (cbDrawn _).value⟩

/-! ### Switches -/

/-- No message of the slot. -/
def NoEff (k : Nat) (out : List Msg) : Prop := ∀ m ∈ out, ∀ s, m ≠ effect k s

/-- The last message of the slot in `out` has the new value. -/
def Wrote (k : Nat) (v : Option Int) (v' : Option Int) (out : List Msg) : Prop :=
  (NoEff k out ∧ v' = v) ∨ ∃ pre s post, out = pre ++ effect k s :: post ∧ NoEff k post ∧ v' = some (if s then 1 else 0)

structure FxMove (k : Nat) (on : Bool) (x : Fx) (on' : Bool) (x' : Fx) (out : List Msg) : Prop where
  fxtype : x'.cb.fxtype = x.cb.fxtype
  weak : Weak x → Weak x'
  sound : Weak x → Sound on x → Sound on' x'
  value : Wrote k x.cb.base.value x'.cb.base.value out

theorem FxMove.refl {k : Nat} {on : Bool} {x : Fx} {out : List Msg} (h : NoEff k out) : FxMove k on x on x out :=
  ⟨rfl, id, fun _ => id, Or.inl ⟨h, rfl⟩⟩

theorem FxMove.trans {k : Nat} {o1 o2 o3 : Bool} {x y z : Fx} {a b : List Msg} (h : FxMove k o1 x o2 y a) (h' : FxMove k o2 y o3 z b) :
    FxMove k o1 x o3 z (a ++ b) := by
  refine ⟨h'.fxtype.trans h.fxtype, fun g => h'.weak (h.weak g), fun w g => h'.sound (h.weak w) (h.sound w g), ?_⟩
  rcases h'.value with ⟨n, e⟩ | ⟨pre, s, post, e, n, e'⟩
  · rcases h.value with ⟨n1, e1⟩ | ⟨pre, s, post, e1, n1, e1'⟩
    · refine Or.inl ⟨fun m hm => ?_, e.trans e1⟩
      rcases List.mem_append.1 hm with hm | hm
      · exact n1 m hm
      · exact n m hm
    · refine Or.inr ⟨pre, s, post ++ b, by rw [e1]; simp, fun m hm => ?_, e.trans e1'⟩
      rcases List.mem_append.1 hm with hm | hm
      · exact n1 m hm
      · exact n m hm
  · exact Or.inr ⟨a ++ pre, s, post, by rw [e]; simp, n, e'⟩

theorem actionMsgs_other {a k : Nat} (hk : k < 4) (h : a ≠ k) {out : List Msg} (ho : ∀ m ∈ out, m ∈ actionMsgs a) : NoEff k out := by
  intro m hm s e
  have hm := ho m hm
  subst e
  unfold actionMsgs at hm
  split at hm
  · simp only [effect, cc, List.mem_cons, List.not_mem_nil, or_false, Msg.cc.injEq] at hm
    omega
  · split at hm
    · simp only [tap, effect, cc, List.mem_cons, List.not_mem_nil, or_false, Msg.cc.injEq] at hm
      omega
    · repeat' split at hm
      all_goals simp only [effect, tuner, previousBank, nextBank, rig, cc, List.mem_cons, List.not_mem_nil, or_false, Msg.cc.injEq] at hm
      all_goals first | omega | exact hm

theorem setState_move {on : Bool} {lit : Option Bool} {x : Fx} (h : FxOk on lit x) (s : Bool) {k : Nat} (hk : k < 4) :
    FxMove k on x on (x.setState s).1 (msgs (Table.effectState k) (bases (x.setState s).2)) := by
  obtain ⟨-, -, a3, a4, a5⟩ := setState_ok h s
  rw [a4 k hk]
  by_cases hs : s = x.cb.base.state
  · rw [if_pos hs]
    have : x.setState s = (x, []) := by unfold Fx.setState; rw [if_pos hs]
    rw [this]
    exact .refl (by simp [NoEff])
  · rw [if_neg hs]
    have hv : (x.setState s).1.cb.base.value = some (if s then 1 else 0) ∧
        (x.setState s).1.cb.base.currentValue = some (some (if s then 1 else 0)) := by
      simp only [Fx.setState, if_neg hs]
      rw [stateChanged_fx (st := { x.cb.base with state := s }) rfl rfl h.disable]
      simp only [Button.firstSet]
      have d1 := cbDrawn { x.cb with base := { x.cb.base with state := s, value := some (if s then 1 else 0) } }
      have d2 := cbDrawn (Effects.updateDisplays fxConfig { x.cb with base := { x.cb.base with state := s, value := some (if s then 1 else 0) } }).1
      exact ⟨by rw [d2.value, d1.value], by rw [d2.current, d1.value]⟩
    refine ⟨a3, fun g => ⟨by rw [hv.1, hv.2], fun t e => g.loaded t (by rw [← a3]; exact e)⟩, fun g _ => ?_,
      Or.inr ⟨[], s, [], rfl, by simp [NoEff], hv.1⟩⟩
    by_cases ht : x.cb.fxtype = none
    · exact Or.inr (Or.inl (a3.trans ht))
    · refine Or.inr (Or.inr ?_)
      unfold Right
      rw [a5 (g.cat ht), hv.1]
      cases s <;> rfl

/-- The tuner state: with the tuner off, all slots are reset. -/
theorem tunerValue_fx (st : State) (v : Int) {k : Nat} (hk : k < 4) :
    (tunerValue st v).acts.fx k = if v = 1 then st.acts.fx k else ((st.acts.fx k).other .reset).1 := by
  by_cases h1 : v = 1
  · subst h1; rfl
  · rw [if_neg h1]
    simp only [tunerValue, Tuner.overrideStep, if_neg h1, applyResets_eq]
    have : k = 0 ∨ k = 1 ∨ k = 2 ∨ k = 3 := by omega
    rcases this with rfl | rfl | rfl | rfl <;> simp [resetOne, withFx]

theorem tunerValue_on (st : State) (v : Int) : (tunerValue st v).ov.on = (v == 1) := by
  by_cases h1 : v = 1
  · subst h1; rfl
  · have : (v == 1) = false := by simpa using h1
    rw [this]
    simp only [tunerValue, Tuner.overrideStep, if_neg h1]

theorem tuner_move (on : Bool) (st : State) (v : Int) {k : Nat} (hk : k < 4) {out : List Msg} (ho : NoEff k out) :
    FxMove k on (st.acts.fx k) (tunerValue st v).ov.on ((tunerValue st v).acts.fx k) out := by
  rw [tunerValue_fx st v hk, tunerValue_on]
  split
  · rename_i h1
    exact ⟨rfl, id, fun _ _ => Or.inl (by simpa using h1), Or.inl ⟨ho, rfl⟩⟩
  · obtain ⟨f1, f2⟩ := other_fields (st.acts.fx k) .reset (Or.inr (Or.inr rfl))
    obtain ⟨r1, r2⟩ := other_reset (st.acts.fx k)
    exact ⟨f1, r1, fun _ _ => Or.inr (Or.inr r2), Or.inl ⟨ho, f2⟩⟩

theorem withTuner_move (st : State) (r : Button.State × List Binary.Eff) {k : Nat} (hk : k < 4) {out : List Msg} (ho : NoEff k out) :
    FxMove k st.ov.on (st.acts.fx k) (withTuner st r).1.ov.on ((withTuner st r).1.acts.fx k) out := by
  simp only [withTuner]
  split
  · exact tuner_move _ { st with acts := { st.acts with tuner := r.1 } } _ hk ho
  · exact .refl ho

theorem call_move {st : State} (h : ActsOk st.ov.on st.acts) (now : Int) (a : Nat) (d : Bool) {k : Nat} (hk : k < 4) :
    FxMove k st.ov.on (st.acts.fx k) (call st now a d).1.ov.on ((call st now a d).1.acts.fx k) (call st now a d).2 := by
  by_cases hak : a = k
  · subst hak
    unfold call
    rw [if_pos hk]
    simp only [withFx, if_true]
    have hx := h.fx a hk
    cases d with
    | true =>
      have hx' : FxOk st.ov.on (st.acts.lit a) ⟨(st.acts.fx a).period.reset now, (st.acts.fx a).cb⟩ :=
        ⟨by simp [PeriodCounter.reset, hx.interval], hx.disable, hx.upd, hx.shown, hx.lit⟩
      have m := setState_move hx' (!(st.acts.fx a).cb.base.state) hk
      exact ⟨m.fxtype, fun g => m.weak ⟨g.current, g.loaded⟩, fun w g => m.sound ⟨w.current, w.loaded⟩ g, m.value⟩
    | false =>
      have hp : ((st.acts.fx a).period.exceeded now).2.interval = 600 := by
        unfold PeriodCounter.exceeded
        split <;> simp [hx.interval]
      have hx' : FxOk st.ov.on (st.acts.lit a) ⟨((st.acts.fx a).period.exceeded now).2, (st.acts.fx a).cb⟩ :=
        ⟨hp, hx.disable, hx.upd, hx.shown, hx.lit⟩
      simp only [Bool.false_eq_true, if_false, Fx.release]
      split
      · have m := setState_move hx' (!(st.acts.fx a).cb.base.state) hk
        exact ⟨m.fxtype, fun g => m.weak ⟨g.current, g.loaded⟩, fun w g => m.sound ⟨w.current, w.loaded⟩ g, m.value⟩
      · exact ⟨rfl, fun g => ⟨g.current, g.loaded⟩, fun _ g => g, Or.inl ⟨by simp [NoEff, bases, msgs], rfl⟩⟩
  · have ho : NoEff k (call st now a d).2 := actionMsgs_other hk hak (call_ok h now a d).2.1
    revert ho
    unfold call
    split
    · intro ho
      refine ⟨?_, ?_, ?_, Or.inl ⟨ho, ?_⟩⟩ <;> simp [withFx, Ne.symm hak]
    · split
      · intro ho; exact .refl ho
      · split
        · intro ho; exact withTuner_move st _ hk ho
        · split
          · split <;> (intro ho; exact .refl ho)
          · split <;> (intro ho; exact .refl ho)

theorem perform_move (now : Int) {k : Nat} (hk : k < 4) (es : List Tuner.OverrideEff) (st : State) (h : ActsOk st.ov.on st.acts) :
    FxMove k st.ov.on (st.acts.fx k) (perform now st es).1.ov.on ((perform now st es).1.acts.fx k) (perform now st es).2 := by
  induction es generalizing st with
  | nil => exact .refl (by simp [NoEff, perform])
  | cons e es ih =>
    cases e with
    | leave =>
      rw [perform_leave]
      have hn : NoEff k [tuner false] := by
        intro m hm s e
        simp at hm
        subst hm
        simp only [tuner, effect, cc, Msg.cc.injEq] at e
        omega
      have m : FxMove k st.ov.on (st.acts.fx k) (leaveSt st).ov.on ((leaveSt st).acts.fx k) [tuner false] :=
        tuner_move _ { st with acts := { st.acts with tuner := (Button.step tunerButton st.acts.tuner (.value (some 0))).1 } } 0 hk hn
      exact m.trans (ih _ (leave_ok h).1.acts)
    | own j e =>
      cases e with
      | push a => exact (call_move h now a true hk).trans (ih _ (call_ok h now a true).1.acts)
      | release a => exact (call_move h now a false hk).trans (ih _ (call_ok h now a false).1.acts)
      | _ => exact ih st h
    | _ => exact ih st h

theorem perform_move' (now : Int) {k : Nat} (hk : k < 4) (es : List Tuner.OverrideEff) (ov : Tuner.OverrideState) (acts : Acts)
    {on : Bool} (e : ov.on = on) (h : ActsOk on acts) :
    FxMove k on (acts.fx k) (perform now ⟨ov, acts⟩ es).1.ov.on ((perform now ⟨ov, acts⟩ es).1.acts.fx k) (perform now ⟨ov, acts⟩ es).2 :=
  by subst e; exact perform_move now hk es ⟨ov, acts⟩ h

theorem foot_move {st : State} (h : Inv st) {k : Nat} (hk : k < 4) (j : Nat) (p : Bool) (now : Int) :
    FxMove k st.ov.on (st.acts.fx k) (Shipped.step st (.process j p now)).1.ov.on ((Shipped.step st (.process j p now)).1.acts.fx k)
      (Shipped.step st (.process j p now)).2 := by
  cases hc : switches[j]? with
  | none =>
    have e1 : Shipped.step st (.process j p now) = (st, []) := by simp only [Shipped.step, Tuner.overrideStep, hc]; rfl
    rw [e1]
    exact .refl (by simp [NoEff])
  | some c =>
    obtain ⟨sw, hs, hw⟩ := h.sw j c hc
    rw [step_process hc hs]
    exact perform_move' now hk _ _ st.acts rfl h.acts

/-! ### Reports -/

/-- What a report does to the slot `k`. -/
def fxEv (k : Nat) (x : Fx) : Event → Fx
  | .effectState j v => if j = k then (x.other (.value (some v))).1 else x
  | .effectType j t => if j = k then (x.other (.fxtype (some t))).1 else x
  | .tuner v => if v = 1 then x else (x.other .reset).1
  | _ => x

theorem step_fxEv (st : State) {k : Nat} (hk : k < 4) (e : Event) (h1 : ∀ j p n, e ≠ .process j p n) (h2 : e ≠ .lost) :
    (Shipped.step st e).1.acts.fx k = fxEv k (st.acts.fx k) e := by
  cases e with
  | process j p n => exact absurd rfl (h1 j p n)
  | lost => exact absurd rfl h2
  | effectState j v =>
    simp only [Shipped.step, fxEv]
    by_cases hj : j = k
    · subst hj; simp [hk, withFx]
    · rw [if_neg hj]
      split
      · simp [withFx, Ne.symm hj]
      · rfl
  | effectType j v =>
    simp only [Shipped.step, fxEv]
    by_cases hj : j = k
    · subst hj; simp [hk, withFx]
    · rw [if_neg hj]
      split
      · simp [withFx, Ne.symm hj]
      · rfl
  | tuner v => exact tunerValue_fx _ v hk
  | rig v => rfl

def IsReport (e : Event) : Prop := (∃ j v, e = .effectState j v) ∨ (∃ j v, e = .effectType j v) ∨ ∃ v, e = .tuner v

theorem take_reports (es : List Event) (he : ∀ e ∈ es, IsReport e) (st : State) (h : Inv st) :
    Inv (takeReports st es) ∧ (takeReports st es).ov.switches = st.ov.switches ∧
    (∀ k < 4, (takeReports st es).acts.fx k = es.foldl (fxEv k) (st.acts.fx k)) ∧
    (takeReports st es).ov.on = es.foldl (fun on e => match e with | .tuner v => v == 1 | _ => on) st.ov.on := by
  induction es generalizing st with
  | nil => exact ⟨h, rfl, fun _ _ => rfl, rfl⟩
  | cons e es ih =>
    have hr := he e (by simp)
    have h1 : ∀ j p n, e ≠ .process j p n := by
      intro j p n; rcases hr with ⟨_, _, rfl⟩ | ⟨_, _, rfl⟩ | ⟨_, rfl⟩ <;> simp
    have h2 : e ≠ .lost := by
      rcases hr with ⟨_, _, rfl⟩ | ⟨_, _, rfl⟩ | ⟨_, rfl⟩ <;> simp
    obtain ⟨r, -⟩ := report_step h e h1
    obtain ⟨i1, i2, i3, i4⟩ := ih (fun e he' => he e (by simp [he'])) (Shipped.step st e).1 r.inv
    refine ⟨i1, i2.trans r.switches, fun k hk => ?_, ?_⟩
    · rw [List.foldl_cons, ← step_fxEv st hk e h1 h2]
      exact i3 k hk
    · rw [List.foldl_cons]
      refine i4.trans ?_
      rw [r.on]
      rcases hr with ⟨_, _, rfl⟩ | ⟨_, _, rfl⟩ | ⟨_, rfl⟩ <;> rfl

theorem reports_are (m : Msg) : ∀ e ∈ reports m, IsReport e := by
  intro e he
  simp only [reports, List.mem_append, List.mem_flatMap, Option.mem_toList, Option.map_eq_some_iff] at he
  rcases he with ⟨j, -, ⟨v, -, rfl⟩ | ⟨v, -, rfl⟩⟩ | ⟨v, -, rfl⟩
  · exact Or.inr (Or.inl ⟨_, _, rfl⟩)
  · exact Or.inl ⟨_, _, rfl⟩
  · exact Or.inr (Or.inr ⟨_, rfl⟩)

/-- The reports of one message, for the slot `k`. -/
def fxMsg (k : Nat) (x : Fx) (m : Msg) : Fx :=
  let y := match told (Table.effectType k) m with | some t => (x.other (.fxtype (some t))).1 | none => x
  let z := match told (Table.effectState k) m with | some v => (y.other (.value (some v))).1 | none => y
  match told Table.tunerMode m with
  | some v => if v = 1 then z else (z.other .reset).1
  | none => z

theorem fold_other {k j : Nat} (h : j ≠ k) (x : Fx) (m : Msg) :
    (((told (Table.effectType j) m).map (Event.effectType j)).toList ++
    ((told (Table.effectState j) m).map (Event.effectState j)).toList).foldl (fxEv k) x = x := by
  cases told (Table.effectType j) m <;> cases told (Table.effectState j) m <;> simp [fxEv, h]

theorem fold_own {k : Nat} (x : Fx) (m : Msg) :
    (((told (Table.effectType k) m).map (Event.effectType k)).toList ++
    ((told (Table.effectState k) m).map (Event.effectState k)).toList).foldl (fxEv k) x =
    (match told (Table.effectState k) m with
      | some v => ((match told (Table.effectType k) m with | some t => (x.other (.fxtype (some t))).1 | none => x).other (.value (some v))).1
      | none => (match told (Table.effectType k) m with | some t => (x.other (.fxtype (some t))).1 | none => x)) := by
  cases told (Table.effectType k) m <;> cases told (Table.effectState k) m <;> simp [fxEv]

theorem fold_reports {k : Nat} (hk : k < 4) (x : Fx) (m : Msg) : (reports m).foldl (fxEv k) x = fxMsg k x m := by
  have hl : List.range 4 = [0, 1, 2, 3] := rfl
  have ht : ∀ z : Fx, ((told Table.tunerMode m).map Event.tuner).toList.foldl (fxEv k) z =
      match told Table.tunerMode m with
      | some v => if v = 1 then z else (z.other .reset).1
      | none => z := by
    intro z; cases told Table.tunerMode m <;> rfl
  unfold reports fxMsg
  rw [List.foldl_append, ht, hl]
  simp only [List.flatMap_cons, List.flatMap_nil, List.append_nil]
  rw [List.foldl_append, List.foldl_append, List.foldl_append]
  have : k = 0 ∨ k = 1 ∨ k = 2 ∨ k = 3 := by omega
  rcases this with rfl | rfl | rfl | rfl
  · rw [fold_own, fold_other (k := 0) (j := 1) (by omega), fold_other (k := 0) (j := 2) (by omega), fold_other (k := 0) (j := 3) (by omega)]
  · rw [fold_other (k := 1) (j := 0) (by omega), fold_own, fold_other (k := 1) (j := 2) (by omega), fold_other (k := 1) (j := 3) (by omega)]
  · rw [fold_other (k := 2) (j := 0) (by omega), fold_other (k := 2) (j := 1) (by omega), fold_own, fold_other (k := 2) (j := 3) (by omega)]
  · rw [fold_other (k := 3) (j := 0) (by omega), fold_other (k := 3) (j := 1) (by omega), fold_other (k := 3) (j := 2) (by omega), fold_own]

theorem fold_on (on : Bool) (m : Msg) :
    (reports m).foldl (fun on e => match e with | .tuner v => v == 1 | _ => on) on =
      match told Table.tunerMode m with | some v => v == 1 | none => on := by
  unfold reports
  rw [List.foldl_append]
  have : ∀ l : List Nat, (l.flatMap fun k =>
      ((told (Table.effectType k) m).map (Event.effectType k)).toList ++
      ((told (Table.effectState k) m).map (Event.effectState k)).toList).foldl
        (fun on e => match e with | .tuner v => v == 1 | _ => on) on = on := by
    intro l
    induction l with
    | nil => rfl
    | cons j l ih =>
      rw [List.flatMap_cons, List.foldl_append]
      cases told (Table.effectType j) m <;> cases told (Table.effectState j) m <;> simpa using ih
  rw [this]
  cases told Table.tunerMode m <;> rfl

theorem fxMsg_fields (k : Nat) (x : Fx) (m : Msg) :
    (fxMsg k x m).cb.fxtype = (match told (Table.effectType k) m with | some t => some t | none => x.cb.fxtype) ∧
    (fxMsg k x m).cb.base.value = (match told (Table.effectState k) m with | some v => some v | none => x.cb.base.value) := by
  have ht := fun (x : Fx) t => other_fields x (.fxtype t) (Or.inr (Or.inl ⟨t, rfl⟩))
  have hv := fun (x : Fx) v => other_fields x (.value v) (Or.inl ⟨v, rfl⟩)
  have hr := fun (x : Fx) => other_fields x .reset (Or.inr (Or.inr rfl))
  unfold fxMsg
  dsimp only
  cases told (Table.effectType k) m <;> cases told (Table.effectState k) m <;> cases told Table.tunerMode m
  all_goals dsimp only
  all_goals (try split)
  all_goals simp [ht, hv, hr]

theorem fxMsg_weak {k : Nat} {x : Fx} {m : Msg} (h : Weak x)
    (ht : ∀ t, told (Table.effectType k) m = some t → Effects.categoryOf (some t) ≠ 0) :
    Weak (fxMsg k x m) ∧ (x.cb.fxtype ≠ none → Right x → Right (fxMsg k x m)) ∧
    (∀ v, told Table.tunerMode m = some v → v ≠ 1 → Right (fxMsg k x m)) := by
  unfold fxMsg
  dsimp only
  have hy : Weak (match told (Table.effectType k) m with | some t => (x.other (.fxtype (some t))).1 | none => x) ∧
      (Right x → Right (match told (Table.effectType k) m with | some t => (x.other (.fxtype (some t))).1 | none => x)) ∧
      (x.cb.fxtype ≠ none →
        (match told (Table.effectType k) m with | some t => (x.other (.fxtype (some t))).1 | none => x).cb.fxtype ≠ none) := by
    cases e : told (Table.effectType k) m with
    | none => exact ⟨h, id, id⟩
    | some t => exact ⟨(other_type h (ht t e)).1, (other_type h (ht t e)).2, fun _ => by
        dsimp only
        rw [(other_fields x (.fxtype (some t)) (Or.inr (Or.inl ⟨_, rfl⟩))).1]; simp⟩
  generalize (match told (Table.effectType k) m with | some t => (x.other (.fxtype (some t))).1 | none => x) = y at hy
  obtain ⟨y1, y2, y3⟩ := hy
  have hz : Weak (match told (Table.effectState k) m with | some v => (y.other (.value (some v))).1 | none => y) ∧
      (x.cb.fxtype ≠ none → Right x → Right (match told (Table.effectState k) m with | some v => (y.other (.value (some v))).1 | none => y)) := by
    cases e : told (Table.effectState k) m with
    | none => exact ⟨y1, fun _ hr => y2 hr⟩
    | some v => exact ⟨(other_value y1 v).1, fun hk hr => (other_value y1 v).2 (y3 hk) (y2 hr)⟩
  generalize (match told (Table.effectState k) m with | some v => (y.other (.value (some v))).1 | none => y) = z at hz
  obtain ⟨z1, z2⟩ := hz
  split
  · rename_i v e
    split
    · rename_i hv
      exact ⟨z1, z2, fun w e' hw => by rw [e] at e'; cases e'; exact absurd hv hw⟩
    · exact ⟨(other_reset z).1 z1, fun _ _ => (other_reset z).2, fun _ _ _ => (other_reset z).2⟩
  · rename_i e
    exact ⟨z1, z2, fun w e' => by rw [e] at e'; cases e'⟩

end PySwitch.Stage
