import Verif.Lemmas.Shipped
/-
The switches of the shipped configuration in use.
-/
namespace PySwitch.Shipped
open PySwitch PySwitch.Wire PySwitch.Shipped.Spec

/-! ### Single calls of `process()` -/

theorem exceeded_iff {p : PeriodCounter} (h : p.interval = 600) (now : Int) :
    (p.exceeded now).1 = decide (now - p.lastReset > 600) := by
  unfold PeriodCounter.exceeded
  by_cases e : p.lastReset + p.interval < now
  · rw [if_pos e]; rw [h] at e; simp; omega
  · rw [if_neg e]; rw [h] at e; simp; omega

theorem exceeded_not {p : PeriodCounter} {now : Int} (h : (p.exceeded now).1 = false) : (p.exceeded now).2 = p := by
  unfold PeriodCounter.exceeded at h ⊢
  split at h
  · simp at h
  · rename_i e; rw [if_neg e]

/-- A switch without hold actions is pressed, is down, is released or up. -/
theorem plain_press {c : Switch.Config} (hc : c.actionsHold = []) {sw : Switch.State} (h : sw.holdActive = false)
    (hp : sw.pushedState = false) (now : Int) :
    Switch.process c sw (sampleOf false true now) = (⟨true, false, sw.holdWasActive, sw.period⟩, c.actions.map .push) := by
  obtain ⟨p, ha, hw, pe⟩ := sw
  simp only at h hp
  subst h hp
  simp [Switch.process, sampleOf, Switch.processPushed, Switch.pushActions, hc, filter_true]

theorem plain_down {c : Switch.Config} {sw : Switch.State} (h : sw.holdActive = false) (hp : sw.pushedState = true) (on : Bool) (now : Int) :
    Switch.process c sw (sampleOf on true now) = (sw, []) := by
  simp [Switch.process, sampleOf, Switch.processPushed, h, hp]

theorem plain_release {c : Switch.Config} (hc : c.actionsHold = []) {sw : Switch.State} (hp : sw.pushedState = true) (now : Int) :
    Switch.process c sw (sampleOf false false now) = (⟨false, false, false, sw.period⟩, c.actions.map .release) := by
  have : (c.actions.flatMap fun a => [Switch.Eff.release a]) = c.actions.map .release := by
    induction c.actions with
    | nil => rfl
    | cons a l ih => simp [ih]
  simp [Switch.process, sampleOf, hp, Switch.release, Switch.releaseActions, hc, this, filter_true]

theorem up {c : Switch.Config} {sw : Switch.State} (hp : sw.pushedState = false) (on : Bool) (now : Int) :
    Switch.process c sw (sampleOf on false now) = (sw, []) := by
  simp [Switch.process, sampleOf, hp]

/-- A switch with hold actions. -/
theorem hold_press {c : Switch.Config} (hc : c.actionsHold ≠ []) {sw : Switch.State} (h : sw.holdActive = false)
    (hp : sw.pushedState = false) (now : Int) :
    Switch.process c sw (sampleOf false true now) = (⟨true, true, sw.holdWasActive, sw.period.reset now⟩, []) := by
  obtain ⟨p, ha, hw, pe⟩ := sw
  simp only at h hp
  subst h hp
  simp [Switch.process, sampleOf, Switch.processPushed, Switch.pushActions, hc]

theorem hold_down {c : Switch.Config} (hr : c.holdRepeat = false) {sw : Switch.State} (hi : sw.period.interval = 600)
    (h : sw.holdActive = true) (hp : sw.pushedState = true) (on : Bool) (now : Int) :
    Switch.process c sw (sampleOf on true now) =
      if now - sw.period.lastReset > 600 then
        (⟨true, false, sw.holdWasActive, ⟨600, now⟩⟩, c.actionsHold.flatMap fun a => [.push a, .release a])
      else (sw, []) := by
  have he := exceeded_iff hi now
  obtain ⟨p, ha, hw, pe⟩ := sw
  simp only at h hp hi he
  subst h hp
  by_cases hx : now - pe.lastReset > 600
  · have e2 : (pe.exceeded now).2 = ⟨600, now⟩ := by
      unfold PeriodCounter.exceeded
      rw [if_pos (by rw [hi]; omega), hi]
    rw [if_pos hx]
    simp only [hx, decide_true] at he
    simp [Switch.process, sampleOf, Switch.checkHold, he, hr, Switch.fireHold, e2, filter_true]
  · simp only [hx, decide_false] at he
    rw [if_neg hx]
    simp [Switch.process, sampleOf, Switch.checkHold, he, Switch.processPushed, exceeded_not he]

theorem hold_release {c : Switch.Config} (hc : c.actionsHold ≠ []) (hr : c.holdRepeat = false) {sw : Switch.State}
    (hi : sw.period.interval = 600) (h : sw.holdActive = true) (hp : sw.pushedState = true) (hw : sw.holdWasActive = false) (now : Int) :
    (Switch.process c sw (sampleOf false false now)).2 =
      (if now - sw.period.lastReset > 600 then c.actionsHold.flatMap fun a => [.push a, .release a]
       else c.actions.flatMap fun a => [.push a, .release a]) ∧
    (Switch.process c sw (sampleOf false false now)).1.pushedState = false ∧
    (Switch.process c sw (sampleOf false false now)).1.holdActive = false := by
  have he := exceeded_iff hi now
  obtain ⟨p, ha, hw', pe⟩ := sw
  simp only at h hp hi he hw
  subst h hp hw
  by_cases hx : now - pe.lastReset > 600
  · simp only [hx, decide_true] at he
    simp [Switch.process, sampleOf, Switch.release, hc, Switch.checkHold, he, hr, hx, Switch.fireHold, filter_true]
  · simp only [hx, decide_false] at he
    simp [Switch.process, sampleOf, Switch.release, hc, Switch.checkHold, he, hx, Switch.releaseActions, filter_true]

theorem hold_release_off {c : Switch.Config} (hc : c.actionsHold ≠ []) {sw : Switch.State}
    (h : sw.holdActive = false) (hp : sw.pushedState = true) (now : Int) :
    Switch.process c sw (sampleOf false false now) = (⟨false, false, sw.holdWasActive, sw.period⟩, []) := by
  obtain ⟨p, ha, hw, pe⟩ := sw
  simp only at h hp
  subst h hp
  simp [Switch.process, sampleOf, Switch.release, hc]

/-- With the tuner on, a switch without a pending hold only tells the tuner callback. -/
theorem tuned {c : Switch.Config} {sw : Switch.State} (h : sw.holdActive = false) (pushed : Bool) (now : Int) :
    Switch.process c sw (sampleOf true pushed now) =
      if pushed = sw.pushedState then (sw, [])
      else (⟨pushed, false, sw.holdWasActive, sw.period⟩, [if pushed then .overridePush else .overrideRelease]) := by
  obtain ⟨p, ha, hw, pe⟩ := sw
  simp only at h
  subst h
  cases pushed <;> cases p <;> simp [Switch.process, sampleOf, Switch.processPushed]

/-! ### Rigs -/

/-- What the calls of the actions for rigs and banks write, with the rig which is to be released. -/
def rigOut (i : Nat) : Option Int → List Switch.Eff → Option Int × List Msg
  | s, [] => (s, [])
  | s, e :: es =>
    let r : Option Int × List Msg :=
      if e = .push (i + 8) then (some i, [cc (50 + i) 1])
      else if e = .release (i + 8) then (none, if s = none then [] else [cc (50 + i) 0])
      else if e = .push 7 then (s, previousBank)
      else if e = .push 13 then (s, nextBank)
      else (s, [])
    ((rigOut i r.1 es).1, r.2 ++ (rigOut i r.1 es).2)

/-- The calls of the actions of the rigs' switches. -/
def RigCalls (i : Nat) (es : List Switch.Eff) : Prop :=
  ∀ e ∈ es, ∃ a, (a = i + 8 ∨ a = 7 ∨ a = 13) ∧ (e = .push a ∨ e = .release a)

theorem call_rig {st : State} (h : ActsOk st.ov.on st.acts) {i : Nat} (hi : i < 5) (now : Int) {e : Switch.Eff} {a : Nat} {d : Bool}
    (ha : a = i + 8 ∨ a = 7 ∨ a = 13) (he : e = if d then .push a else .release a) :
    rigOut i (st.acts.rig i).sent [e] = (((call st now a d).1.acts.rig i).sent, (call st now a d).2) := by
  obtain ⟨g1, g2, g3⟩ := h.rig i
  rcases ha with e' | e' | e'
  · have ha8 : ¬ a < 4 ∧ a ≠ 4 ∧ a ≠ 6 ∧ ¬ (a = 7 ∨ a = 13) ∧ (8 ≤ a ∧ a ≤ 12) := by omega
    obtain ⟨q1, q2, q3, q4, q5⟩ := ha8
    have ei : a - 8 = i := by omega
    cases d with
    | true =>
      simp only [if_true] at he
      obtain ⟨p1, p2, p3⟩ := rig_push (i := i) g1 h.shared
      have hcall : call st now a true = ({ st with acts := { st.acts with
          rig := fun j => if j = i then ((rigSelect i).push (st.acts.rig i) st.acts.shared).1 else st.acts.rig j,
          shared := ((rigSelect i).push (st.acts.rig i) st.acts.shared).2.1 } },
          ((rigSelect i).push (st.acts.rig i) st.acts.shared).2.2.map ccMsg) := by
        unfold call
        rw [if_neg q1, if_neg q2, if_neg q3, if_neg q4, if_pos q5]
        simp only [ei, if_true]
      rw [hcall, p3, p1, he, e']
      simp only [rigOut, if_true, List.map_cons, List.map_nil]
      rw [show (1 : Int) = ((1 : Nat) : Int) from rfl, cc_msg]
      rfl
    | false =>
      simp only [Bool.false_eq_true, if_false] at he
      obtain ⟨p1, p2, p3⟩ := rig_release (i := i) (sh := st.acts.shared) g3
      have hcall : call st now a false = ({ st with acts := { st.acts with
          rig := fun j => if j = i then ((rigSelect i).release (st.acts.rig i) st.acts.shared).1 else st.acts.rig j,
          shared := ((rigSelect i).release (st.acts.rig i) st.acts.shared).2.1 } },
          ((rigSelect i).release (st.acts.rig i) st.acts.shared).2.2.map ccMsg) := by
        unfold call
        rw [if_neg q1, if_neg q2, if_neg q3, if_neg q4, if_pos q5]
        simp only [ei, Bool.false_eq_true, if_false]
      rw [hcall, p3, p1, he, e']
      simp only [rigOut, if_true, reduceCtorEq, if_false, List.append_nil]
      by_cases hs : (st.acts.rig i).sent = none
      · rw [if_pos hs, if_pos hs]; rfl
      · rw [if_neg hs, if_neg hs]
        simp only [List.map_cons, List.map_nil]
        rw [show (0 : Int) = ((0 : Nat) : Int) from rfl, cc_msg]
  · subst e'
    cases d with
    | true =>
      simp only [if_true] at he
      subst he
      simp only [rigOut, Switch.Eff.push.injEq, show ¬ (7 = i + 8) by omega, if_false, reduceCtorEq, if_true, List.append_nil]
      rfl
    | false =>
      simp only [Bool.false_eq_true, if_false] at he
      subst he
      simp only [rigOut, Switch.Eff.release.injEq, show ¬ (7 = i + 8) by omega, if_false, reduceCtorEq, List.append_nil]
      rfl
  · subst e'
    cases d with
    | true =>
      simp only [if_true] at he
      subst he
      simp only [rigOut, Switch.Eff.push.injEq, show ¬ (13 = i + 8) by omega, show ¬ (13 = 7) by omega, if_false, reduceCtorEq, if_true,
        List.append_nil]
      rfl
    | false =>
      simp only [Bool.false_eq_true, if_false] at he
      subst he
      simp only [rigOut, Switch.Eff.release.injEq, show ¬ (13 = i + 8) by omega, if_false, reduceCtorEq, List.append_nil]
      rfl

theorem rigOut_cons (i : Nat) (s : Option Int) (e : Switch.Eff) (es : List Switch.Eff) :
    rigOut i s (e :: es) = ((rigOut i (rigOut i s [e]).1 es).1, (rigOut i s [e]).2 ++ (rigOut i (rigOut i s [e]).1 es).2) := by
  simp [rigOut]

theorem perform_rig {i : Nat} (hi : i < 5) (now : Int) (k : Nat) (es : List Switch.Eff) (he : RigCalls i es) (st : State)
    (h : ActsOk st.ov.on st.acts) :
    rigOut i (st.acts.rig i).sent es =
      (((perform now st (es.map (.own k))).1.acts.rig i).sent, (perform now st (es.map (.own k))).2) := by
  induction es generalizing st with
  | nil => rfl
  | cons e es ih =>
    obtain ⟨a, ha, hpr⟩ := he e (by simp)
    have ih := ih (fun x hx => he x (by simp [hx]))
    have key : ∀ d, e = (if d then .push a else .release a) →
        rigOut i (st.acts.rig i).sent (e :: es) =
          (((perform now (call st now a d).1 (es.map (.own k))).1.acts.rig i).sent,
            (call st now a d).2 ++ (perform now (call st now a d).1 (es.map (.own k))).2) := by
      intro d hd
      rw [rigOut_cons, call_rig h hi now ha hd]
      simp only
      rw [ih _ (call_ok h now a d).1.acts]
    rcases hpr with rfl | rfl
    · exact key true rfl
    · exact key false rfl

/-- The switches for the rigs. -/
theorem rig_switch {k : Nat} (hk : 5 ≤ k ∧ k ≤ 9) : ∃ c, switches[k]? = some c ∧ c.actions = [k - 5 + 8] ∧ c.holdRepeat = false ∧
    c.actionsHold = (if k = 5 then [7] else if k = 9 then [13] else []) := by
  obtain ⟨h1, h2⟩ := hk
  have : k = 5 ∨ k = 6 ∨ k = 7 ∨ k = 8 ∨ k = 9 := by omega
  rcases this with rfl | rfl | rfl | rfl | rfl <;> exact ⟨_, rfl, rfl, rfl, rfl⟩

theorem form_rig {k : Nat} (hk : 5 ≤ k ∧ k ≤ 9) {c : Switch.Config} (hc : switches[k]? = some c) {es : List Switch.Eff}
    (h : Form c false es) : RigCalls (k - 5) es ∧ ∀ e ∈ es, (∃ a, e = .push a) ∨ ∃ a, e = .release a := by
  obtain ⟨c', h1, h2, _, h3⟩ := rig_switch hk
  rw [h1] at hc
  cases hc
  have ho : ∀ e ∈ es, (∃ a, e = .push a) ∨ ∃ a, e = .release a := by
    rcases form_own h with e | ⟨_, e⟩ | e
    · exact absurd e.2 (by simp)
    · simp at e
    · exact e
  refine ⟨?_, ho⟩
  have := form_actions h k ho
  intro e he
  rcases this (.own k e) (by simpa using he) with ⟨x, _⟩ | ⟨k', a, ha, hx⟩
  · simp at x
  · refine ⟨a, ?_, ?_⟩
    · rw [h2, h3] at ha
      simp only [List.mem_append, List.mem_singleton] at ha
      rcases ha with ha | ha
      · exact Or.inl ha
      · split at ha
        · simp at ha; exact Or.inr (Or.inl ha)
        · split at ha
          · simp at ha; exact Or.inr (Or.inr ha)
          · simp at ha
    · rcases hx with hx | hx <;> simp at hx
      · exact Or.inl hx.2
      · exact Or.inr hx.2

/-- A rig's switch on its own: the switch and the rig to be released, and what is written. -/
def rigLocal (k : Nat) (c : Switch.Config) : Switch.State → Option Int → List (Bool × Int) → List Msg
  | _, _, [] => []
  | sw, s, x :: xs =>
    let r := Switch.process c sw (sampleOf false x.1 x.2)
    let o := rigOut (k - 5) s r.2
    o.2 ++ rigLocal k c r.1 o.1 xs

theorem rig_step {st : State} (h : Inv st) (hon : st.ov.on = false) {k : Nat} (hk : 5 ≤ k ∧ k ≤ 9) {c : Switch.Config}
    (hc : switches[k]? = some c) {sw : Switch.State} (hs : st.ov.switches[k]? = some sw) (p : Bool) (now : Int) :
    (step st (.process k p now)).1.ov.switches[k]? = some (Switch.process c sw (sampleOf false p now)).1 ∧
    rigOut (k - 5) (st.acts.rig (k - 5)).sent (Switch.process c sw (sampleOf false p now)).2 =
      (((step st (.process k p now)).1.acts.rig (k - 5)).sent, (step st (.process k p now)).2) := by
  obtain ⟨sw', hs', hw⟩ := h.sw k c hc
  rw [hs] at hs'
  cases hs'
  have hf := (process_form c (noRepeat k c hc) sw hw false p now).1
  obtain ⟨f1, f2⟩ := form_rig hk hc hf
  have hstep := step_process hc hs p now
  rw [hon, applyOverride_own _ _ _ f2] at hstep
  rw [hstep]
  have ha : ActsOk (⟨⟨false, st.ov.pushedBefore, st.ov.switches.set k (Switch.process c sw (sampleOf false p now)).1⟩, st.acts⟩ : State).ov.on
      st.acts := by
    have := h.acts
    rw [hon] at this
    exact this
  have hin : k < st.ov.switches.length := (List.getElem?_eq_some_iff.mp hs).1
  have hpo := perform_ok _ false now _ (form_actions hf k f2)
    ⟨⟨false, st.ov.pushedBefore, st.ov.switches.set k (Switch.process c sw (sampleOf false p now)).1⟩, st.acts⟩ ha
  refine ⟨?_, perform_rig (by omega) now k _ f1 _ ha⟩
  rw [hpo.1.switches]
  simp [hin]

/-- Only what the switch sees of itself matters. -/
theorem rig_local {k : Nat} (hk : 5 ≤ k ∧ k ≤ 9) {c : Switch.Config} (hc : switches[k]? = some c) (es : List Event) (st : State)
    (h : Inv st) (ht : TunerIs false st es) (sw : Switch.State) (hs : st.ov.switches[k]? = some sw) :
    writtenBy k st es = rigLocal k c sw (st.acts.rig (k - 5)).sent (seen k es) := by
  induction es generalizing st sw with
  | nil => rfl
  | cons e es ih =>
    obtain ⟨hon, ht⟩ := ht
    have ha := any_step h e
    by_cases hof : isOf k e = true
    · cases e with
      | process j p now =>
        have hj : j = k := by simpa [isOf] using hof
        subst hj
        obtain ⟨r1, r2⟩ := rig_step h hon hk hc hs p now
        simp only [writtenBy, hof, if_true, seen, rigLocal, r2]
        rw [ih _ ha.inv ht _ r1]
      | _ => simp [isOf] at hof
    · have hof' : isOf k e = false := by simpa using hof
      have hseen : seen k (e :: es) = seen k es := by
        cases e with
        | process j p now =>
          have : j ≠ k := by simpa [isOf] using hof'
          simp [seen, this]
        | _ => rfl
      rw [hseen]
      simp only [writtenBy, hof', Bool.false_eq_true, if_false, List.nil_append]
      rw [ih _ ha.inv ht sw (by rw [ha.switches k hof']; exact hs), (ha.frame k hof').sent hk.1]

/-- Not pressed, and no hold pending. -/
def Rest (c : Switch.Config) (sw : Switch.State) : Prop := SwOk c sw ∧ sw.pushedState = false ∧ sw.holdActive = false

theorem rigLocal_down (k : Nat) (c : Switch.Config) (sw : Switch.State) (h : sw.holdActive = false) (hp : sw.pushedState = true)
    (s : Option Int) (down : List Int) (rest : List (Bool × Int)) :
    rigLocal k c sw s ((down.map fun t => (true, t)) ++ rest) = rigLocal k c sw s rest := by
  induction down with
  | nil => rfl
  | cons t ts ih =>
    simp only [List.map_cons, List.cons_append, rigLocal, plain_down h hp, rigOut, List.nil_append]
    exact ih

theorem rigOut_click (i : Nat) (s : Option Int) : rigOut i s [.push (i + 8), .release (i + 8)] = (none, rig i) := by
  simp [rigOut, rig]

/-- What the hold actions of the rigs' switches write. -/
def bankOf (k : Nat) : List Msg := if k = 5 then previousBank else nextBank

theorem rigOut_bank {k : Nat} (hk : k = 5 ∨ k = 9) (s : Option Int) :
    rigOut (k - 5) s ((if k = 5 then [7] else [13]).flatMap fun a => [Switch.Eff.push a, .release a]) = (s, bankOf k) := by
  rcases hk with rfl | rfl <;> simp [rigOut, bankOf]

/-- A switch with a hold action, from the time it is pressed. -/
theorem hold_use {k : Nat} (hk : k = 5 ∨ k = 9) {c : Switch.Config} (hc : c.actions = [k - 5 + 8]) (hh : c.actionsHold = if k = 5 then [7] else [13])
    (hr : c.holdRepeat = false) (t0 : Int) (down : List Int) (t1 : Int) (rest : List (Bool × Int)) (s : Option Int) :
    ∃ sw' s', rigLocal k c ⟨true, true, false, ⟨600, t0⟩⟩ s ((down.map fun t => (true, t)) ++ (false, t1) :: rest) =
      (if long t0 down t1 then bankOf k else rig (k - 5)) ++ rigLocal k c sw' s' rest ∧ Rest c sw' := by
  have hne : c.actionsHold ≠ [] := by rw [hh]; split <;> simp
  induction down with
  | nil =>
    have hswok : SwOk c ⟨true, true, false, ⟨600, t0⟩⟩ := ⟨rfl, rfl, fun e => absurd e hne⟩
    obtain ⟨r1, r2, r3⟩ := hold_release hne hr (sw := ⟨true, true, false, ⟨600, t0⟩⟩) rfl rfl rfl rfl t1
    have hok := (process_form c hr _ hswok false false t1).2
    simp only [List.map_nil, List.nil_append, rigLocal, r1, long, List.any_cons, List.any_nil, Bool.or_false]
    by_cases hx : t1 - t0 > 600
    · simp only [hx, if_true, decide_true]
      rw [hh, rigOut_bank hk]
      exact ⟨_, _, rfl, hok, r2, r3⟩
    · simp only [hx, if_false, decide_false, Bool.false_eq_true]
      rw [hc]
      simp only [List.flatMap_cons, List.flatMap_nil, List.append_nil, rigOut_click]
      exact ⟨_, _, rfl, hok, r2, r3⟩
  | cons t ts ih =>
    simp only [List.map_cons, List.cons_append, rigLocal, hold_down hr (sw := ⟨true, true, false, ⟨600, t0⟩⟩) rfl rfl rfl]
    by_cases hx : t - t0 > 600
    · simp only [hx, if_true, hh, rigOut_bank hk]
      have hl : long t0 (t :: ts) t1 = true := by simp [long, hx]
      rw [rigLocal_down k c ⟨true, false, false, ⟨600, t⟩⟩ rfl rfl, hl]
      simp only [if_true, rigLocal, hold_release_off hne (sw := ⟨true, false, false, ⟨600, t⟩⟩) rfl rfl, rigOut, List.nil_append]
      exact ⟨_, _, rfl, ⟨rfl, rfl, fun _ => rfl⟩, rfl, rfl⟩
    · simp only [hx, if_false, rigOut, List.nil_append]
      have hl : long t0 (t :: ts) t1 = long t0 ts t1 := by simp [long, hx]
      rw [hl]
      exact ih

theorem rig_use {k : Nat} (hk : 5 ≤ k ∧ k ≤ 9) {c : Switch.Config} (hc : switches[k]? = some c) (u : Use) (rest : List (Bool × Int))
    (sw : Switch.State) (h : Rest c sw) (s : Option Int) :
    ∃ sw' s', rigLocal k c sw s (u.seen ++ rest) = rigUse k u ++ rigLocal k c sw' s' rest ∧ Rest c sw' := by
  obtain ⟨c0, h1, h2, h4, h3⟩ := rig_switch hk
  rw [h1] at hc
  have hcc : c = c0 := by simpa using hc.symm
  subst hcc
  obtain ⟨hok, hp, ha⟩ := h
  cases u with
  | idle now =>
    simp only [Use.seen, List.cons_append, List.nil_append, rigLocal, up hp, rigOut, rigUse]
    exact ⟨sw, s, rfl, hok, hp, ha⟩
  | press t0 down t1 =>
    simp only [Use.seen, List.cons_append, List.append_assoc, List.nil_append, rigUse]
    by_cases h59 : k = 5 ∨ k = 9
    · have hh : c.actionsHold = if k = 5 then [7] else [13] := by
        rw [h3]; rcases h59 with rfl | rfl <;> rfl
      have hne : c.actionsHold ≠ [] := by rw [hh]; split <;> simp
      have hpe : sw.period.reset t0 = ⟨600, t0⟩ := by
        unfold PeriodCounter.reset; rw [hok.interval]
      simp only [rigLocal, hold_press hne ha hp, rigOut, List.nil_append, hok.was, hpe]
      obtain ⟨sw', s', e, hr⟩ := hold_use h59 h2 hh h4 t0 down t1 rest s
      refine ⟨sw', s', ?_, hr⟩
      rw [e]
      rcases h59 with rfl | rfl
      · cases long t0 down t1 <;> simp [bankOf]
      · cases long t0 down t1 <;> simp [bankOf]
    · have hh : c.actionsHold = [] := by
        rw [h3, if_neg (fun e => h59 (Or.inl e)), if_neg (fun e => h59 (Or.inr e))]
      have n5 : k ≠ 5 := fun e => h59 (Or.inl e)
      have n9 : k ≠ 9 := fun e => h59 (Or.inr e)
      simp only [rigLocal, plain_press hh ha hp, h2]
      rw [rigLocal_down k _ _ rfl rfl]
      simp only [rigLocal, plain_release hh (sw := ⟨true, false, sw.holdWasActive, sw.period⟩) rfl, h2]
      refine ⟨⟨false, false, false, sw.period⟩, none, ?_, ⟨hok.interval, rfl, fun _ => rfl⟩, rfl, rfl⟩
      simp [rigOut, rig, n5, n9]

theorem rig_uses {k : Nat} (hk : 5 ≤ k ∧ k ≤ 9) {c : Switch.Config} (hc : switches[k]? = some c) (us : List Use)
    (sw : Switch.State) (h : Rest c sw) (s : Option Int) :
    rigLocal k c sw s (us.flatMap Use.seen) = us.flatMap (rigUse k) := by
  induction us generalizing sw s with
  | nil => rfl
  | cons u us ih =>
    obtain ⟨sw', s', e, hr⟩ := rig_use hk hc u (us.flatMap Use.seen) sw h s
    rw [List.flatMap_cons, List.flatMap_cons, e, ih sw' hr s']

/-! ### A switch which does nothing for a while -/

theorem step_nothing {st : State} {k : Nat} {c : Switch.Config} {sw : Switch.State} (hc : switches[k]? = some c)
    (hs : st.ov.switches[k]? = some sw) {p : Bool} {now : Int} (he : Switch.process c sw (sampleOf st.ov.on p now) = (sw, [])) :
    step st (.process k p now) = (st, []) := by
  rw [step_process hc hs, he]
  have : st.ov.switches.set k sw = st.ov.switches := by
    obtain ⟨h1, h2⟩ := List.getElem?_eq_some_iff.mp hs
    rw [← h2]; exact List.set_getElem_self h1
  simp only [Tuner.applyOverride, perform, this]

theorem still_run {k : Nat} {c : Switch.Config} (hc : switches[k]? = some c) {sw : Switch.State} (es : List Event)
    (he : ∀ on, ∀ x ∈ seen k es, Switch.process c sw (sampleOf on x.1 x.2) = (sw, [])) (st : State) (h : Inv st)
    (hs : st.ov.switches[k]? = some sw) :
    writtenBy k st es = [] ∧ (run st es).2.ov.switches[k]? = some sw ∧ Frame k st.acts (run st es).2.acts := by
  induction es generalizing st with
  | nil => exact ⟨rfl, hs, Frame.rfl⟩
  | cons e es ih =>
    have ha := any_step h e
    by_cases hof : isOf k e = true
    · cases e with
      | process j p now =>
        have hj : j = k := by simpa [isOf] using hof
        subst hj
        have e1 := step_nothing hc hs (he st.ov.on (p, now) (by simp [seen]))
        obtain ⟨i1, i2, i3⟩ := ih (fun on x hx => he on x (by simp [seen, hx])) st h hs
        simp only [writtenBy, run, e1, ite_self, List.nil_append]
        exact ⟨i1, i2, i3⟩
      | _ => simp [isOf] at hof
    · have hof' : isOf k e = false := by simpa using hof
      have hseen : seen k (e :: es) = seen k es := by
        cases e with
        | process j p now =>
          have : j ≠ k := by simpa [isOf] using hof'
          simp [seen, this]
        | _ => rfl
      rw [hseen] at he
      obtain ⟨i1, i2, i3⟩ := ih he (step st e).1 ha.inv (by rw [ha.switches k hof']; exact hs)
      simp only [writtenBy, hof', Bool.false_eq_true, if_false, List.nil_append, run]
      exact ⟨i1, i2, (ha.frame k hof').trans i3⟩

/-! ### Effect slots -/

theorem call_fx_push {st : State} (h : ActsOk st.ov.on st.acts) {k : Nat} (hk : k < 4) (now : Int) :
    (call st now k true).2 = [effect k (!(st.acts.fx k).cb.base.state)] ∧
    ((call st now k true).1.acts.fx k).period = ⟨600, now⟩ ∧
    (Effects.categoryOf (st.acts.fx k).cb.fxtype ≠ 0 →
      ((call st now k true).1.acts.fx k).cb.base.state = !(st.acts.fx k).cb.base.state) := by
  have hx := h.fx k hk
  have hx' : FxOk st.ov.on (st.acts.lit k) ⟨(st.acts.fx k).period.reset now, (st.acts.fx k).cb⟩ :=
    ⟨by simp [PeriodCounter.reset, hx.interval], hx.disable, hx.upd, hx.shown, hx.lit⟩
  obtain ⟨_, b2, _, b4, b5⟩ := setState_ok hx' (!(st.acts.fx k).cb.base.state)
  have e : call st now k true = ({ st with acts := (withFx st.acts k ((st.acts.fx k).push now)).1 },
      (withFx st.acts k ((st.acts.fx k).push now)).2) := by
    unfold call
    rw [if_pos hk]; rfl
  rw [e]
  refine ⟨?_, ?_, fun hcat => ?_⟩
  · show msgs (Table.effectState k) (bases (Fx.setState ⟨(st.acts.fx k).period.reset now, (st.acts.fx k).cb⟩ (!(st.acts.fx k).cb.base.state)).2) = _
    rw [b4 k hk, if_neg (by simp)]
  · simp only [withFx, if_true]
    show (Fx.setState ⟨(st.acts.fx k).period.reset now, (st.acts.fx k).cb⟩ (!(st.acts.fx k).cb.base.state)).1.period = _
    rw [b2]
    simp [PeriodCounter.reset, hx.interval]
  · simp only [withFx, if_true]
    exact b5 hcat

theorem call_fx_release {st : State} (h : ActsOk st.ov.on st.acts) {k : Nat} (hk : k < 4) (now : Int) :
    (call st now k false).2 =
      (if now - (st.acts.fx k).period.lastReset > 600 then [effect k (!(st.acts.fx k).cb.base.state)] else []) ∧
    (Effects.categoryOf (st.acts.fx k).cb.fxtype ≠ 0 →
      ((call st now k false).1.acts.fx k).cb.base.state =
        if now - (st.acts.fx k).period.lastReset > 600 then !(st.acts.fx k).cb.base.state else (st.acts.fx k).cb.base.state) := by
  have hx := h.fx k hk
  have he := exceeded_iff hx.interval now
  have e : call st now k false = ({ st with acts := (withFx st.acts k ((st.acts.fx k).release now)).1 },
      (withFx st.acts k ((st.acts.fx k).release now)).2) := by
    unfold call
    rw [if_pos hk]; rfl
  rw [e]
  have hp : ((st.acts.fx k).period.exceeded now).2.interval = 600 := by
    unfold PeriodCounter.exceeded
    split <;> simp [hx.interval]
  have hx' : FxOk st.ov.on (st.acts.lit k) ⟨((st.acts.fx k).period.exceeded now).2, (st.acts.fx k).cb⟩ :=
    ⟨hp, hx.disable, hx.upd, hx.shown, hx.lit⟩
  obtain ⟨_, b2, _, b4, b5⟩ := setState_ok hx' (!(st.acts.fx k).cb.base.state)
  simp only [withFx, if_true]
  unfold Fx.release
  by_cases hl : now - (st.acts.fx k).period.lastReset > 600
  · simp only [hl, decide_true] at he
    simp only [he, if_true, hl]
    exact ⟨by rw [b4 k hk, if_neg (by simp)], b5⟩
  · simp only [hl, decide_false] at he
    simp only [he, if_false, hl, Bool.false_eq_true]
    exact ⟨rfl, fun _ => trivial⟩

theorem fx_switch {k : Nat} (hk : k < 4) : ∃ c, switches[k]? = some c ∧ c.actions = [k] ∧ c.actionsHold = [] := by
  have : k = 0 ∨ k = 1 ∨ k = 2 ∨ k = 3 := by omega
  rcases this with rfl | rfl | rfl | rfl <;> exact ⟨_, rfl, rfl, rfl⟩

/-! ### Tuner -/

theorem step_own {st : State} (hon : st.ov.on = false) {k : Nat} {c : Switch.Config} {sw : Switch.State} (hc : switches[k]? = some c)
    (hs : st.ov.switches[k]? = some sw) {p : Bool} {now : Int} {sw' : Switch.State} {es : List Switch.Eff}
    (he : Switch.process c sw (sampleOf false p now) = (sw', es)) (ho : ∀ e ∈ es, (∃ a, e = .push a) ∨ ∃ a, e = .release a) :
    step st (.process k p now) =
      perform now ⟨⟨false, st.ov.pushedBefore, st.ov.switches.set k sw'⟩, st.acts⟩ (es.map (.own k)) := by
  rw [step_process hc hs, hon, he]
  simp only [applyOverride_own _ _ _ ho]

theorem step_own' {st : State} (hon : st.ov.on = false) {k : Nat} {c : Switch.Config} {sw : Switch.State} (hc : switches[k]? = some c)
    (hs : st.ov.switches[k]? = some sw) {p : Bool} {now : Int} {es : List Switch.Eff}
    (he : (Switch.process c sw (sampleOf false p now)).2 = es) (ho : ∀ e ∈ es, (∃ a, e = .push a) ∨ ∃ a, e = .release a) :
    ∃ l, step st (.process k p now) = perform now ⟨⟨false, st.ov.pushedBefore, l⟩, st.acts⟩ (es.map (.own k)) :=
  ⟨_, step_own hon hc hs (sw' := (Switch.process c sw (sampleOf false p now)).1) (Prod.ext_iff.mpr ⟨rfl, he⟩) ho⟩

/-- The tuner action is clicked with the tuner off. -/
theorem tuner_click {st : State} (h : ActsOk st.ov.on st.acts) (hs : st.acts.tuner.cb.state = false) (now : Int) :
    (perform now st [.own 4 (.push 6), .own 4 (.release 6)]).2 = [tuner true] ∧
    (perform now st [.own 4 (.push 6), .own 4 (.release 6)]).1.ov.on = true := by
  have e1 : call st now 6 true = withTuner st (Button.setState tunerButton ⟨st.acts.tuner.period.reset now, st.acts.tuner.cb⟩ (!st.acts.tuner.cb.state)) := rfl
  obtain ⟨b1, b2, b3, b4, _⟩ := withTuner_ok h (t := ⟨st.acts.tuner.period.reset now, st.acts.tuner.cb⟩)
    ⟨by simp [PeriodCounter.reset, h.tuner.interval], h.tuner.disable, h.tuner.upd⟩ (!st.acts.tuner.cb.state) rfl
  rw [← e1] at b1 b2 b3 b4
  rw [hs] at b2 b3
  simp only [Bool.not_false, Bool.true_eq_false, if_false] at b2 b3
  have hx : ((call st now 6 true).1.acts.tuner.period.exceeded now).1 = false := by
    rw [b4]
    unfold PeriodCounter.exceeded PeriodCounter.reset
    simp only [h.tuner.interval]
    rw [if_neg (by omega)]
  have e2 : (call (call st now 6 true).1 now 6 false).2 = [] ∧ (call (call st now 6 true).1 now 6 false).1.ov.on = (call st now 6 true).1.ov.on := by
    generalize (call st now 6 true).1 = st' at hx
    have : call st' now 6 false = withTuner st' (Button.step tunerButton st'.acts.tuner (.release now)) := rfl
    rw [this]
    simp only [Button.step, Button.release, tunerButton, Button.tunerMode, hx, Bool.false_eq_true, if_false]
    exact ⟨rfl, rfl⟩
  simp only [perform]
  rw [b2, e2.1, e2.2, b3]
  exact ⟨rfl, rfl⟩

/-! ### With the tuner on -/

theorem leave_step {st : State} (h : Inv st) (now : Int) :
    (perform now st [.leave]).2 = [tuner false] ∧ (perform now st [.leave]).1.ov.on = false := by
  rw [perform_leave]
  exact ⟨rfl, (leave_ok h.acts).2.1⟩

theorem report_pushed {st : State} (e : Event) (he : ∀ k p n, e ≠ .process k p n) :
    (step st e).1.ov.pushedBefore = st.ov.pushedBefore := by
  cases e with
  | process k p n => exact absurd rfl (he k p n)
  | tuner v =>
    simp only [step, tunerValue, Tuner.overrideStep]
    split <;> rfl
  | effectState slot v => simp only [step]; split <;> rfl
  | effectType slot v => simp only [step]; split <;> rfl
  | rig v => rfl
  | lost => rfl

/-- Once a switch has been pressed with the tuner on, only the end of the tuner can make the application forget it. -/
theorem pushed_kept {st : State} (h : Inv st) (hpb : st.ov.pushedBefore = true) (e : Event) (hon : (step st e).1.ov.on = true) :
    (step st e).1.ov.pushedBefore = true := by
  by_cases he : ∀ k p n, e ≠ .process k p n
  · rw [report_pushed e he, hpb]
  · cases e with
    | process k p n =>
      cases hc : switches[k]? with
      | none =>
        have e1 : step st (.process k p n) = (st, []) := by simp only [step, Tuner.overrideStep, hc]; rfl
        rw [e1]; exact hpb
      | some c =>
        obtain ⟨sw, hs, hw⟩ := h.sw k c hc
        have hf := (process_form c (noRepeat k c hc) sw hw st.ov.on p n).1
        rw [step_process hc hs, hpb] at hon ⊢
        generalize (Switch.process c sw (sampleOf st.ov.on p n)).1 = sw' at hon ⊢
        generalize (Switch.process c sw (sampleOf st.ov.on p n)).2 = es at hf hon ⊢
        have ha : ∀ pb, ActsOk (⟨⟨st.ov.on, pb, st.ov.switches.set k sw'⟩, st.acts⟩ : State).ov.on st.acts := fun _ => h.acts
        rcases form_own hf with ⟨e, _⟩ | ⟨e, _⟩ | e
        · subst e; rfl
        · subst e
          simp only [Tuner.applyOverride] at hon
          rw [if_pos (by trivial), perform_leave] at hon
          exact absurd hon (by simp [perform, (leave_ok (ha _)).2.1])
        · rw [applyOverride_own _ _ _ e]
          exact (perform_ok _ false n _ (form_actions hf k e) _ (ha _)).1.pushed
    | _ => exact absurd (fun k p n x => by cases x) he

theorem pushed_run {st : State} (h : Inv st) (hpb : st.ov.pushedBefore = true) (es : List Event) (x : Event)
    (ht : TunerIs true st (es ++ [x])) : (run st es).2.ov.pushedBefore = true ∧ (run st es).2.ov.on = true := by
  induction es generalizing st with
  | nil => exact ⟨hpb, ht.1⟩
  | cons e es ih =>
    obtain ⟨_, ht⟩ := ht
    have hon : (step st e).1.ov.on = true := by
      cases es with
      | nil => exact ht.1
      | cons y ys => exact ht.1
    exact ih (any_step h e).inv (pushed_kept h hpb e hon) ht

/-- No switch has a pending hold. -/
def NoHold (st : State) : Prop := ∀ (k : Nat) sw, st.ov.switches[k]? = some sw → sw.holdActive = false

theorem tuned_step {st : State} (h : Inv st) (hn : NoHold st) (hon : st.ov.on = true) (e : Event) :
    NoHold (step st e).1 ∧ ((step st e).2 = [] ∨ (step st e).2 = [tuner false]) := by
  by_cases he : ∀ k p n, e ≠ .process k p n
  · obtain ⟨r1, r2⟩ := report_step h e he
    refine ⟨fun k sw hk => hn k sw (by rw [← r1.switches]; exact hk), Or.inl r2⟩
  · cases e with
    | process k p n =>
      cases hc : switches[k]? with
      | none =>
        have e1 : step st (.process k p n) = (st, []) := by simp only [step, Tuner.overrideStep, hc]; rfl
        rw [e1]; exact ⟨hn, Or.inl rfl⟩
      | some c =>
        obtain ⟨sw, hs, hw⟩ := h.sw k c hc
        have hin : k < st.ov.switches.length := (List.getElem?_eq_some_iff.mp hs).1
        have htun := tuned (c := c) (hn k sw hs) p n
        have hset : ∀ sw' : Switch.State, sw'.holdActive = false → ∀ (j : Nat) x, (st.ov.switches.set k sw')[j]? = some x → x.holdActive = false := by
          intro sw' h' j x hx
          by_cases e : j = k
          · subst e
            simp [hin] at hx
            subst hx; exact h'
          · rw [List.getElem?_set_ne (by omega)] at hx
            exact hn j x hx
        rw [step_process hc hs, hon, htun]
        by_cases hp : p = sw.pushedState
        · rw [if_pos hp]
          exact ⟨hset sw (hn k sw hs), Or.inl rfl⟩
        · rw [if_neg hp]
          cases p with
          | true => exact ⟨hset _ rfl, Or.inl rfl⟩
          | false =>
            simp only [Bool.false_eq_true, if_false, Tuner.applyOverride]
            by_cases hpb : st.ov.pushedBefore = true
            · rw [if_pos hpb, perform_leave]
              have ha : ∀ pb, ActsOk (⟨⟨true, pb, st.ov.switches.set k ⟨false, false, sw.holdWasActive, sw.period⟩⟩, st.acts⟩ : State).ov.on st.acts :=
                fun _ => by have := h.acts; rw [hon] at this; exact this
              refine ⟨?_, Or.inr rfl⟩
              intro j x hx
              simp only [perform] at hx
              rw [(leave_ok (ha _)).1.switches] at hx
              exact hset _ rfl j x hx
            · rw [if_neg hpb]
              exact ⟨hset _ rfl, Or.inl rfl⟩
    | _ => exact absurd (fun k p n x => by cases x) he

end PySwitch.Shipped
