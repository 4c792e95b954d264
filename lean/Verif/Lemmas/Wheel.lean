import Verif.Spec.Wheel
import Verif.Lemmas.Encoder
import Verif.Lemmas.Preview
import Verif.Lemmas.Switch
/-
Helper lemmas for the wheel.
-/
namespace PySwitch.Wheel

theorem previewed_append (p : Option Int) (a b : List Encoder.Eff) :
    previewed p (a ++ b) = previewed (previewed p a) b := by
  induction a generalizing p with
  | nil => rfl
  | cons e a ih => cases e <;> simp only [List.cons_append, previewed, ih]

/-- What is assumed about the encoder. -/
structure Config.Ok (c : Config) : Prop where
  pre : c.enc.preselect = true
  prev : c.enc.hasPreview = true
  scale : c.enc.scale = none
  low : 0 ≤ c.enc.min
  range : c.enc.min ≤ c.enc.max
  resets : c.pv.resets 0 = true

/-- The encoder is in line with what is previewed. -/
def EncInv (st : Encoder.State) (p : Option Int) : Prop :=
  (st.active = true → ∃ v, st.lastValue = some v ∧ v ≠ -1 ∧ p = some v) ∧ (st.active = false → p = none)

theorem cancel_eq {c : Config} (hc : c.Ok) (st : Encoder.State) (i : Bool) :
    Encoder.cancel c.enc st i = .ok ({ st with active := false, lastValue := st.value }, [.previewReset i]) := by
  simp [Encoder.cancel, Encoder.getValue, hc.scale, hc.prev]

theorem accept_eq {c : Config} (hc : c.Ok) (st : Encoder.State) (p : Option Int) (h : EncInv st p) :
    ∃ st' es, Encoder.accept c.enc st = .ok (st', es) ∧ Encoder.sets es = p.toList ∧
      EncInv st' (previewed p es) ∧ previewed p es = none ∧ (∀ v, .preview v ∉ es) ∧
      (p ≠ none → es = .set p.get! :: [.previewReset false] ∧ st'.value = p ∧ st'.lastValue = p) ∧
      (p = none → es = [] ∧ st' = st) := by
  cases ha : st.active with
  | false =>
    have hp := h.2 ha
    subst hp
    refine ⟨st, [], ?_, rfl, h, rfl, by simp, by simp, by simp⟩
    unfold Encoder.accept
    cases st.lastValue with
    | none => rfl
    | some v => simp [hc.pre, ha]
  | true =>
    obtain ⟨v, hv, h1, rfl⟩ := h.1 ha
    refine ⟨{ st with value := some v, active := false, lastValue := some v }, [.set v, .previewReset false],
      ?_, rfl, ⟨by simp, by simp [previewed]⟩, rfl, by simp, by simp, by simp⟩
    unfold Encoder.accept
    rw [hv]
    simp only [if_neg h1, ha, hc.pre, Bool.not_true, Bool.and_false, Bool.false_eq_true, if_false]
    have : Encoder.setValue c.enc st v = { st with value := some v } := by simp [Encoder.setValue, hc.scale]
    rw [this, cancel_eq hc]
    simp [hc.scale]

theorem process_inv {c : Config} (hc : c.Ok) {st st' : Encoder.State} {q : Int} {es} {p : Option Int} (h : EncInv st p)
    (hr : Encoder.process c.enc st q = .ok (st', es)) :
    EncInv st' (previewed p es) ∧ Encoder.sets es = [] := by
  have hcr : ∀ {s s' : Encoder.State} {es}, EncInv s p → Encoder.checkReset c.enc s = .ok (s', es) →
      EncInv s' (previewed p es) ∧ Encoder.sets es = [] := by
    intro s s' es hi hr
    unfold Encoder.checkReset at hr
    split at hr
    · split at hr
      · simp only at hr
        split at hr
        · simp at hr
        · rename_i r st1 es1 hx
          simp only [Except.ok.injEq, Prod.mk.injEq] at hr
          obtain ⟨rfl, rfl⟩ := hr
          split at hx
          · rw [cancel_eq hc] at hx
            simp only [Except.ok.injEq, Prod.mk.injEq] at hx
            obtain ⟨rfl, rfl⟩ := hx
            exact ⟨⟨by simp, fun _ => rfl⟩, rfl⟩
          · simp only [Except.ok.injEq, Prod.mk.injEq] at hx
            obtain ⟨rfl, rfl⟩ := hx
            exact ⟨hi, rfl⟩
      · simp only [Except.ok.injEq, Prod.mk.injEq] at hr
        obtain ⟨rfl, rfl⟩ := hr
        exact ⟨hi, rfl⟩
    · simp only [Except.ok.injEq, Prod.mk.injEq] at hr
      obtain ⟨rfl, rfl⟩ := hr
      exact ⟨hi, rfl⟩
  obtain ⟨st₀, st₁, es₁, h0, h1, _, hcase⟩ := Encoder.process_ok hr
  have hi₀ : EncInv st₀ p := by rw [h0]; split <;> exact h
  obtain ⟨hi₁, hs₁⟩ := hcr hi₀ h1
  rcases hcase with ⟨_, rfl, rfl⟩ | ⟨_, es₂, ht, rfl⟩
  · exact ⟨hi₁, hs₁⟩
  · rw [previewed_append, Encoder.sets_append, hs₁]
    generalize previewed p es₁ = p₁ at hi₁
    unfold Encoder.turned at ht
    have hg : Encoder.getValue c.enc st₁ = .ok st₁.value := by simp [Encoder.getValue, hc.scale]
    rw [hg] at ht
    simp only [hc.pre, hc.prev, if_true] at ht
    have hsame : (if st₁.value = none then Encoder.setValue c.enc st₁ 0 else st₁).lastValue = st₁.lastValue ∧
        (if st₁.value = none then Encoder.setValue c.enc st₁ 0 else st₁).active = st₁.active := by
      split
      · unfold Encoder.setValue; split <;> exact ⟨rfl, rfl⟩
      · exact ⟨rfl, rfl⟩
    generalize (if st₁.value = none then Encoder.setValue c.enc st₁ 0 else st₁) = s₂ at ht hsame
    cases hl : s₂.lastValue with
    | none => rw [hl] at ht; simp at ht
    | some b =>
      rw [hl] at ht
      simp only at ht
      have hcl := (Encoder.clamp_range hc.range (b + (pyInt (q * c.enc.step) - s₂.lastPos))).1
      have hlow := hc.low
      generalize Encoder.clamp c.enc (b + (pyInt (q * c.enc.step) - s₂.lastPos)) = v at ht hcl
      split at ht
      · simp only [Except.ok.injEq, Prod.mk.injEq] at ht
        obtain ⟨rfl, rfl⟩ := ht
        exact ⟨⟨fun _ => ⟨v, rfl, by omega, rfl⟩, by simp⟩, rfl⟩
      · simp only [Except.ok.injEq, Prod.mk.injEq] at ht
        obtain ⟨rfl, rfl⟩ := ht
        refine ⟨⟨fun ha => ?_, fun ha => ?_⟩, rfl⟩
        · have := hi₁.1 (by rw [← hsame.2]; exact ha)
          rw [← hsame.1, hl] at this
          exact this
        · exact hi₁.2 (by rw [← hsame.2]; exact ha)

/-- The label shows the previewed value. -/
def LabInv (c : Config) (lab : Preview.State) (p : Option Int) : Prop :=
  ∀ v, p = some v → lab.override = some (c.conv v) ∧ lab.text = c.conv v ∧ lab.stay = true ∧ 0 ∈ lab.clients

theorem showAll_inv {c : Config} (hc : c.Ok) (hconv : ∀ v, c.conv v ≠ "") (now : Int) (lab : Preview.State)
    (es : List Encoder.Eff) (p : Option Int) (h : LabInv c lab p) :
    LabInv c (showAll c now lab es) (previewed p es) := by
  induction es generalizing lab p with
  | nil => exact h
  | cons e es ih =>
    unfold showAll
    rw [List.foldl_cons]
    cases e with
    | preview v =>
      refine ih _ (some v) ?_
      intro w hw
      simp only [Option.some.injEq] at hw
      subst hw
      have := Preview.preview_spec c.pv lab now ⟨c.conv v, some 0, c.enc.preselect,
        c.timeout, if c.enc.preselect then c.blink else none, c.blinkColor⟩
      obtain ⟨h1, h2, _, _, _, h6, h7, _⟩ := this
      refine ⟨h1, h7 (hconv v), h2.trans hc.pre, ?_⟩
      show 0 ∈ (Preview.preview c.pv lab now _).1.clients
      rw [h6]
      simp only
      split <;> simp_all
    | previewReset i => exact ih _ none (by intro w hw; simp at hw)
    | set v => exact ih _ p h
    | bank b => exact ih _ p h

/-- The switch is in line with what the user knows. -/
structure SwInv (H : Int) (sw : Switch.State) (s : Seen) : Prop where
  pushed : sw.pushedState = s.down.isSome
  was : sw.holdWasActive = false
  interval : sw.period.interval = H
  active : sw.holdActive = (s.down.isSome && !s.over)
  since : ∀ t, s.down = some t → s.over = false → sw.period.lastReset = t
  up : s.down = none → s.over = false

/-- The calls expected in an event. -/
def expectedCalls (H : Int) (s : Seen) (b : Switch.Sample) : List EncoderButton.Call :=
  (if s.short H (.button b) && b.enabled 0 then [.accept 0] else []) ++
  (if s.long H (.button b) && b.enabled 1 then [.cancel 0] else [])

theorem pushed_click0 (b : Switch.Sample) :
    Wheel.pushed (Switch.Spec.click [0] b) = if b.enabled 0 then [.accept 0] else [] := by
  unfold Switch.Spec.click
  cases h : b.enabled 0
  · simp [h, Wheel.pushed]
  · simp [h, Wheel.pushed]; decide

theorem pushed_click1 (b : Switch.Sample) :
    Wheel.pushed (Switch.Spec.click [1] b) = if b.enabled 1 then [.cancel 0] else [] := by
  unfold Switch.Spec.click
  cases h : b.enabled 1
  · simp [h, Wheel.pushed]
  · simp [h, Wheel.pushed]; decide

theorem switch_step {H : Int} {sw : Switch.State} {s : Seen} (h : SwInv H sw s) (b : Switch.Sample)
    (ho : b.override = none) (es : List Encoder.Eff) :
    SwInv H (Switch.process switchConfig sw b).1 (s.next H (.button b) es) ∧
    Wheel.pushed (Switch.process switchConfig sw b).2 = expectedCalls H s b := by
  obtain ⟨ps, ha, hw, per⟩ := sw
  obtain ⟨h1, h2, h3, h4, h5, h6⟩ := h
  simp only at h1 h2 h3 h4 h5
  subst h2 h1 h4
  cases hd : s.down with
  | none =>
    have hov := h6 hd
    cases hb : b.pushed with
    | false =>
      have e := Switch.process_idle switchConfig ⟨false, false, false, per⟩ b hb rfl
      simp only [Option.isSome_none, Bool.false_and, e]
      exact ⟨⟨by simp [Seen.next, hb], rfl, h3, by simp [Seen.next, hb], by simp [Seen.next, hb],
        by simp [Seen.next, hb]⟩, by simp [expectedCalls, Seen.short, Seen.long, hd, Wheel.pushed]⟩
    | true =>
      have e := Switch.process_press switchConfig (by simp [switchConfig]) H ⟨false, false, false, per⟩
        ⟨rfl, rfl, rfl, h3⟩ b hb ho
      simp only [Option.isSome_none, Bool.false_and, e]
      exact ⟨⟨by simp [Seen.next, hb, hd], rfl, rfl, by simp [Seen.next, hb, hd], by simp [Seen.next, hb, hd],
        by simp [Seen.next, hb, hd]⟩, by simp [expectedCalls, Seen.short, Seen.long, hd, Wheel.pushed]⟩
  | some t =>
    simp only [Option.isSome_some, Bool.true_and]
    cases hov : s.over with
    | true =>
      cases hb : b.pushed with
      | false =>
        have e : Switch.process switchConfig ⟨true, false, false, per⟩ b = (⟨false, false, false, per⟩, []) := by
          simp [Switch.process, hb, ho, Switch.release, switchConfig]
        simp only [Bool.not_true, e]
        exact ⟨⟨by simp [Seen.next, hb], rfl, h3, by simp [Seen.next, hb], by simp [Seen.next, hb],
          by simp [Seen.next, hb]⟩, by simp [expectedCalls, Seen.short, Seen.long, hd, hov, Wheel.pushed]⟩
      | true =>
        have e := Switch.process_held_wait switchConfig ⟨true, false, false, per⟩ b hb rfl (by simp)
        simp only [Bool.not_true, e]
        exact ⟨⟨by simp [Seen.next, hb, hd], rfl, h3, by simp [Seen.next, hb, hd, hov],
          by simp [Seen.next, hb, hd, hov], by simp [Seen.next, hb, hd]⟩,
          by simp [expectedCalls, Seen.short, Seen.long, hd, hov, Wheel.pushed]⟩
    | false =>
      have hs := h5 t hd hov
      by_cases ht : b.now - t > H
      · have htt : b.now - per.lastReset > per.interval := by omega
        cases hb : b.pushed with
        | false =>
          have e : Switch.process switchConfig ⟨true, true, false, per⟩ b =
              (⟨false, false, false, { per with lastReset := b.now }⟩, Switch.Spec.click [1] b) := by
            simp [Switch.process, hb, ho, Switch.release, switchConfig, Switch.checkHold, Switch.exceeded_true htt,
              Switch.fireHold, Switch.Spec.click]
          simp only [Bool.not_false, e]
          refine ⟨⟨by simp [Seen.next, hb], rfl, h3, by simp [Seen.next, hb], by simp [Seen.next, hb],
            by simp [Seen.next, hb]⟩, ?_⟩
          rw [pushed_click1]
          have hn : ¬ b.now - t ≤ H := by omega
          simp [expectedCalls, Seen.short, Seen.long, hd, hov, hn, ht]
        | true =>
          have e := Switch.process_held_fire switchConfig ⟨true, true, false, per⟩ b hb rfl htt
          simp only [Bool.not_false, e]
          refine ⟨⟨by simp [Seen.next, hb, hd], by simp [switchConfig], h3,
            by simp [Seen.next, hb, hd, hov, Seen.long, ht, switchConfig], ?_,
            by simp [Seen.next, hb, hd]⟩, ?_⟩
          · intro t' _ hx
            simp [Seen.next, hb, hd, hov, Seen.long, ht] at hx
          · show Wheel.pushed (Switch.Spec.click [1] b) = _
            rw [pushed_click1]
            simp [expectedCalls, Seen.short, Seen.long, hd, hov, ht, hb]
      · have htt : ¬ b.now - per.lastReset > per.interval := by omega
        have hle : b.now - t ≤ H := by omega
        cases hb : b.pushed with
        | false =>
          have e : Switch.process switchConfig ⟨true, true, false, per⟩ b =
              (⟨false, false, false, per⟩, Switch.Spec.click [0] b) := by
            simp [Switch.process, hb, ho, Switch.release, switchConfig, Switch.checkHold, Switch.exceeded_false htt,
              Switch.releaseActions, Switch.Spec.click]
          simp only [Bool.not_false, e]
          refine ⟨⟨by simp [Seen.next, hb], rfl, h3, by simp [Seen.next, hb], by simp [Seen.next, hb],
            by simp [Seen.next, hb]⟩, ?_⟩
          rw [pushed_click0]
          simp [expectedCalls, Seen.short, Seen.long, hd, hov, hle, ht, hb]
        | true =>
          have e := Switch.process_held_wait switchConfig ⟨true, true, false, per⟩ b hb rfl (fun _ => htt)
          simp only [Bool.not_false, e]
          refine ⟨⟨by simp [Seen.next, hb, hd], rfl, h3, ?_, ?_, by simp [Seen.next, hb, hd]⟩, ?_⟩
          · simp [Seen.next, hb, hd, hov, Seen.long, ht]
          · intro t' h' _
            simp only [Seen.next, hb, hd, if_true, Option.some.injEq] at h'
            rw [hs]; exact h'
          · simp [expectedCalls, Seen.short, Seen.long, hd, hov, ht, hb, Wheel.pushed]

structure Inv (c : Config) (w : World) (s : Seen) : Prop where
  enc : EncInv w.enc s.value
  sw : SwInv c.holdTime w.sw s
  lab : (∀ v, c.conv v ≠ "") → LabInv c w.lab s.value

/-- The values to be sent in one event. -/
def expected1 (H : Int) (s : Seen) (e : Ev) : List Int :=
  match e with
  | .button b => if s.short H e && b.enabled 0 then s.value.toList else []
  | _ => []

theorem short_long (H : Int) (s : Seen) (e : Ev) (h : s.short H e = true) : s.long H e = false := by
  cases e with
  | button b =>
    simp only [Seen.short, Seen.long] at h ⊢
    cases hd : s.down with
    | none => simp
    | some t =>
      rw [hd] at h
      simp only [Bool.and_eq_true, decide_eq_true_eq] at h
      have : ¬ b.now - t > H := by omega
      simp [this]
  | _ => rfl

theorem next_value (H : Int) (s : Seen) (e : Ev) (o : List Encoder.Eff) :
    (s.next H e o).value = previewed s.value o := by
  cases e with
  | button b =>
    simp only [Seen.next]
    split
    · split <;> rfl
    · rfl
  | _ => rfl

theorem next_other (H : Int) (s : Seen) (e : Ev) (o : List Encoder.Eff) (h : ∀ b, e ≠ .button b) :
    s.next H e o = { s with value := previewed s.value o } := by
  cases e with
  | button b => exact absurd rfl (h b)
  | _ => rfl

theorem SwInv.value {H : Int} {sw : Switch.State} {s : Seen} (h : SwInv H sw s) (p : Option Int) :
    SwInv H sw { s with value := p } := ⟨h.1, h.2, h.3, h.4, h.5, h.6⟩

theorem step_inv {c : Config} (hc : c.Ok) {w w' : World} {s : Seen} {e : Ev} {o : List Encoder.Eff} (h : Inv c w s)
    (hf : e.free = true) (hr : step c w e = .ok (w', o)) :
    Inv c w' (s.next c.holdTime e o) ∧ Encoder.sets o = expected1 c.holdTime s e := by
  cases e with
  | turn now q =>
    simp only [step] at hr
    split at hr
    · simp at hr
    · rename_i enc es hp
      simp only [Except.ok.injEq, Prod.mk.injEq] at hr
      obtain ⟨rfl, rfl⟩ := hr
      obtain ⟨h1, h2⟩ := process_inv hc h.enc hp
      refine ⟨⟨h1, h.sw.value _, fun hv => ?_⟩, h2⟩
      exact showAll_inv hc hv now w.lab es s.value (h.lab hv)
  | button b =>
    simp only [step] at hr
    have ho : b.override = none := by simpa [Ev.free] using hf
    have hsw := fun es => switch_step h.sw b ho es
    have hpush := (hsw []).2
    rw [hpush] at hr
    have hstep : ∀ enc es, calls c w.enc (expectedCalls c.holdTime s b) = .ok (enc, es) →
        EncInv enc (previewed s.value es) ∧ Encoder.sets es = expected1 c.holdTime s (.button b) := by
      intro enc es hcalls
      unfold expectedCalls at hcalls
      by_cases hs : (s.short c.holdTime (.button b) && b.enabled 0) = true
      · have hs' : s.short c.holdTime (.button b) = true := by
          simp only [Bool.and_eq_true] at hs; exact hs.1
        have hl := short_long _ _ _ hs'
        obtain ⟨enc', es', ha, hset, hinv, _⟩ := accept_eq hc w.enc s.value h.enc
        rw [if_pos hs, hl] at hcalls
        simp only [Bool.false_and, Bool.false_eq_true, if_false, List.append_nil, calls, call, ha,
          Except.ok.injEq, Prod.mk.injEq] at hcalls
        obtain ⟨rfl, rfl⟩ := hcalls
        refine ⟨hinv, ?_⟩
        simp only [expected1]
        rw [if_pos hs]; exact hset
      · rw [if_neg hs] at hcalls
        have he : expected1 c.holdTime s (.button b) = [] := by simp only [expected1]; rw [if_neg hs]
        rw [he]
        split at hcalls
        · simp only [List.nil_append, calls, call, cancel_eq hc, List.append_nil, Except.ok.injEq,
            Prod.mk.injEq] at hcalls
          obtain ⟨rfl, rfl⟩ := hcalls
          exact ⟨⟨by simp, fun _ => rfl⟩, rfl⟩
        · simp only [List.nil_append, calls, Except.ok.injEq, Prod.mk.injEq] at hcalls
          obtain ⟨rfl, rfl⟩ := hcalls
          exact ⟨h.enc, rfl⟩
    split at hr
    · simp at hr
    · rename_i enc es hcalls
      simp only [Except.ok.injEq, Prod.mk.injEq] at hr
      obtain ⟨rfl, rfl⟩ := hr
      obtain ⟨h1, h2⟩ := hstep _ _ hcalls
      refine ⟨⟨?_, (hsw es).1, fun hv => ?_⟩, h2⟩
      · rw [next_value]; exact h1
      · rw [next_value]; exact showAll_inv hc hv b.now w.lab es s.value (h.lab hv)
  | device v =>
    simp only [step, Except.ok.injEq, Prod.mk.injEq] at hr
    obtain ⟨rfl, rfl⟩ := hr
    exact ⟨⟨h.enc, h.sw, h.lab⟩, rfl⟩
  | rig v =>
    simp only [step, Except.ok.injEq, Prod.mk.injEq] at hr
    obtain ⟨rfl, rfl⟩ := hr
    exact ⟨⟨h.enc, h.sw, h.lab⟩, rfl⟩
  | other now r =>
    simp only [step] at hr
    split at hr
    · rw [cancel_eq hc] at hr
      simp only [Except.ok.injEq, Prod.mk.injEq] at hr
      obtain ⟨rfl, rfl⟩ := hr
      exact ⟨⟨⟨by simp, fun _ => rfl⟩, h.sw.value _, fun _ v hv => by simp [Seen.next, previewed] at hv⟩, rfl⟩
    · rename_i hn
      simp only [Except.ok.injEq, Prod.mk.injEq] at hr
      obtain ⟨rfl, rfl⟩ := hr
      refine ⟨⟨h.enc, h.sw, fun hv v hp => ?_⟩, rfl⟩
      exfalso
      apply hn
      have := (h.lab hv v hp).2.2.2
      rw [(Preview.preview_spec c.pv w.lab now { r with client := r.client.map (· + 1) }).2.2.2.2.1]
      refine List.mem_filter.2 ⟨this, ?_⟩
      cases r.client <;> simp
  | update now =>
    simp only [step, Except.ok.injEq, Prod.mk.injEq] at hr
    obtain ⟨rfl, rfl⟩ := hr
    refine ⟨⟨h.enc, h.sw, fun hv v hp => ?_⟩, rfl⟩
    obtain ⟨h1, h2, h3, h4⟩ := h.lab hv v hp
    have := (Preview.Showing.step (c := c.pv) (hv v) (o := .update now) ⟨h1, h2, h3, rfl⟩ rfl).2
    rcases this with ⟨hs, _⟩ | ⟨_, hx, _⟩
    · refine ⟨hs.ov, hs.text, hs.stay, ?_⟩
      show 0 ∈ (Preview.update c.pv w.lab now).clients
      unfold Preview.update
      split
      · have hb : ∀ st : Preview.State, (Preview.updateBlink c.pv st now).clients = st.clients := by
          intro st; unfold Preview.updateBlink; split
          · rfl
          · simp only; split <;> rfl
        rw [hb]
        unfold Preview.updateTimeout
        rw [h3]
        exact h4
      · exact h4
    · simp at hx
  | content t =>
    simp only [step, Except.ok.injEq, Prod.mk.injEq] at hr
    obtain ⟨rfl, rfl⟩ := hr
    refine ⟨⟨h.enc, h.sw, fun hv v hp => ?_⟩, rfl⟩
    obtain ⟨h1, h2, h3, h4⟩ := h.lab hv v hp
    have hx := Preview.updateLabel_some (c := c.pv) (st := { w.lab with content := t }) h1 (hv v)
    have hy := Preview.updateLabel_same c.pv { w.lab with content := t }
    refine ⟨?_, hx, ?_, ?_⟩
    · show (Preview.updateLabel c.pv { w.lab with content := t }).override = _
      rw [hy]; exact h1
    · show (Preview.updateLabel c.pv { w.lab with content := t }).stay = _
      rw [hy]; exact h3
    · show 0 ∈ (Preview.updateLabel c.pv { w.lab with content := t }).clients
      rw [hy]; exact h4

theorem inv_initial {c : Config} (lab : Preview.State) : Inv c (initial c lab) {} :=
  ⟨⟨by simp [initial], fun _ => rfl⟩,
   ⟨rfl, rfl, rfl, rfl, by simp, by simp⟩,
   fun _ v hv => by simp at hv⟩

theorem run_inv {c : Config} (hc : c.Ok) {w w' : World} {s : Seen} {es : List Ev} {os} (h : Inv c w s)
    (hf : ∀ e ∈ es, e.free = true) (hr : run c w es = .ok (w', os)) :
    Inv c w' (s.after c.holdTime es os) ∧ os.map Encoder.sets = s.expected c.holdTime es os := by
  induction es generalizing w s os with
  | nil =>
    simp only [run, Except.ok.injEq, Prod.mk.injEq] at hr
    obtain ⟨rfl, rfl⟩ := hr
    exact ⟨h, rfl⟩
  | cons e es ih =>
    simp only [run] at hr
    split at hr
    · simp at hr
    · rename_i w1 o hs
      split at hr
      · simp at hr
      · rename_i w2 os' hr'
        simp only [Except.ok.injEq, Prod.mk.injEq] at hr
        obtain ⟨rfl, rfl⟩ := hr
        obtain ⟨h1, h2⟩ := step_inv hc h (hf e (by simp)) hs
        obtain ⟨h3, h4⟩ := ih h1 (fun e he => hf e (by simp [he])) hr'
        refine ⟨h3, ?_⟩
        simp only [List.map_cons, Seen.expected, h4, h2]
        rfl

theorem run_append {c : Config} {w w'' : World} {a b : List Ev} {os} (h : run c w (a ++ b) = .ok (w'', os)) :
    ∃ w' o1 o2, run c w a = .ok (w', o1) ∧ run c w' b = .ok (w'', o2) ∧ os = o1 ++ o2 := by
  induction a generalizing w os with
  | nil => exact ⟨w, [], os, rfl, h, rfl⟩
  | cons e a ih =>
    simp only [List.cons_append, run] at h
    split at h
    · simp at h
    · rename_i w1 o hs
      split at h
      · simp at h
      · rename_i w2 os' hr'
        simp only [Except.ok.injEq, Prod.mk.injEq] at h
        obtain ⟨rfl, rfl⟩ := h
        obtain ⟨w', o1, o2, h1, h2, rfl⟩ := ih hr'
        exact ⟨w', o :: o1, o2, by simp only [run, hs, h1], h2, rfl⟩

end PySwitch.Wheel
