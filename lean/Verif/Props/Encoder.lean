import Verif.Lemmas.Encoder
/-
C39, C40, C41, C67: rotary encoders.
-/
namespace PySwitch.Props
open PySwitch.Encoder

/-- Example configurations: a control change parameter; an NRPN parameter with preselection; the bank encoder. -/
def exEncoder : Encoder.Config := {}
def exEncoderPre : Encoder.Config := { sysex := true, preselect := true, hasPreview := true }
def exEncoderBank : Encoder.Config := { maxValue := some 124, stepWidth := some (1 / 2), scale := some 5 }

/-! ### C39 -/

/-- C39. Every value sent in any history is between the minimum and the maximum value. -/
theorem C39_range (c : Encoder.Config) (hc : c.min ≤ c.max) (h : List Op) (st : Encoder.State) (ess : List (List Eff))
    (hr : run c {} h = .ok (st, ess)) : ∀ es ∈ ess, ∀ v ∈ sets es, c.min ≤ v ∧ v ≤ c.max := by
  have key : ∀ (h : List Op) (s st : Encoder.State) (ess : List (List Eff)), Encoder.Inv c s →
      run c s h = .ok (st, ess) → ∀ es ∈ ess, ∀ v ∈ sets es, c.min ≤ v ∧ v ≤ c.max := by
    intro h
    induction h with
    | nil =>
      intro s st ess _ hr
      simp only [run, Except.ok.injEq, Prod.mk.injEq] at hr
      obtain ⟨rfl, rfl⟩ := hr
      simp
    | cons o h ih =>
      intro s st ess hi hr es hes
      obtain ⟨st₁, es₁, rest, hs, hr', rfl⟩ := run_cons_ok hr
      obtain ⟨hi₁, hv⟩ := step_inv hc hi hs
      rcases List.mem_cons.1 hes with rfl | hes
      · exact hv
      · exact ih _ _ _ hi₁ hr' es hes
  exact key h {} st ess (by intro h; simp at h) hr

example : (run exEncoder {} [.device (some 126), .turn 5, .turn 8, .turn 10, .turn (-300)]).map
    (fun r => r.2.map sets) = .ok [[], [], [127], [], [0]] := by decide +kernel

/-- C39. Nothing is sent without a position change: if the encoder is at the position `p` and read again there, nothing
is sent, whatever happens in between. -/
theorem C39_no_change (c : Encoder.Config) (h mid : List Op) (p : Int) (hm : ∀ o ∈ mid, o.isTurn = false)
    (st : Encoder.State) (ess : List (List Eff))
    (hr : run c {} (h ++ [.turn p] ++ mid ++ [.turn p]) = .ok (st, ess)) : ess.getLast?.map sets = some [] := by
  obtain ⟨st₁, e₁, e₂, h1, h2, rfl⟩ := run_append hr
  obtain ⟨st₂, e₃, e₄, h3, h4, rfl⟩ := run_append h1
  obtain ⟨st₃, e₅, e₆, h5, h6, rfl⟩ := run_append h3
  obtain ⟨es, hs, rfl⟩ := run_single h6
  obtain ⟨es', hs', rfl⟩ := run_single h2
  have hpos : st₂.lastPos = pyInt (p * c.step) := process_lastPos hs
  -- the events in between do not change the position
  have key : ∀ (mid : List Op), (∀ o ∈ mid, o.isTurn = false) → ∀ (s s' : Encoder.State) (e : List (List Eff)),
      run c s mid = .ok (s', e) → s'.lastPos = s.lastPos := by
    intro mid
    induction mid with
    | nil =>
      intro _ s s' e hr
      simp only [run, Except.ok.injEq, Prod.mk.injEq] at hr
      obtain ⟨rfl, rfl⟩ := hr
      rfl
    | cons o mid ih =>
      intro hm s s' e hr
      obtain ⟨t, es, rest, hs, hr', rfl⟩ := run_cons_ok hr
      rw [ih (fun o ho => hm o (List.mem_cons_of_mem _ ho)) _ _ _ hr']
      have ho := hm o (by simp)
      cases o with
      | turn p => simp [Op.isTurn] at ho
      | device v => simp only [step, Except.ok.injEq, Prod.mk.injEq] at hs; rw [← hs.1]
      | resetMap v => simp only [step, Except.ok.injEq, Prod.mk.injEq] at hs; rw [← hs.1]
      | accept =>
        simp only [step] at hs
        split at hs
        · rcases accept_ok hs with ⟨rfl, _⟩ | ⟨_, _, _, _, _, h, _⟩
          · rfl
          · exact h
        · simp only [Except.ok.injEq, Prod.mk.injEq] at hs; rw [← hs.1]
      | cancel => exact (cancel_ok hs).2.2.2.2.1
  have hpos' : st₁.lastPos = pyInt (p * c.step) := by rw [key mid hm _ _ _ h4, hpos]
  obtain ⟨s₀, s₁, e₁, hs₀, hcr, hl, hcase⟩ := process_ok hs'
  have hlp : s₁.lastPos = pyInt (p * c.step) := by
    rw [hl, hs₀]; split
    · rfl
    · exact hpos'
  rcases hcase with ⟨_, _, rfl⟩ | ⟨hn, _⟩
  · rw [List.getLast?_concat, Option.map_some, (checkReset_ok hcr).1]
  · exact absurd hlp hn

/-- C39. In direct mode only turning sends something. -/
theorem C39_only_turning (c : Encoder.Config) (hp : c.preselect = false) (s st : Encoder.State) (o : Op)
    (ho : o.isTurn = false) (es : List Eff) (h : step c s o = .ok (st, es)) : sets es = [] := by
  cases o with
  | turn p => simp [Op.isTurn] at ho
  | device v => simp only [step, Except.ok.injEq, Prod.mk.injEq] at h; rw [← h.2]; rfl
  | resetMap v => simp only [step, Except.ok.injEq, Prod.mk.injEq] at h; rw [← h.2]; rfl
  | accept =>
    simp only [step, hp, Bool.false_eq_true, if_false, Except.ok.injEq, Prod.mk.injEq] at h
    rw [← h.2]; rfl
  | cancel => exact (cancel_ok h).1

/-! ### C40 -/

/-- C40. In direct mode, from a known value in the range: turning through any positions changes the value of the
parameter by the turned amount, limited to the range at each step, and the device has been told so: the last value
sent (if any) is the value. The scaled positions must not be -1, and the range must not contain -1. -/
theorem C40_direct_partial (c : Encoder.Config) (hp : c.preselect = false) (hs : c.scale = none)
    (hmin : 0 ≤ c.min) (hmax : c.min ≤ c.max) (v₀ p₀ : Int) (hv : c.min ≤ v₀ ∧ v₀ ≤ c.max) (ps : List Int)
    (hpos : ∀ p ∈ p₀ :: ps, pyInt (p * c.step) ≠ -1) :
    ∃ st ess, run c {} (.device (some v₀) :: .turn p₀ :: ps.map .turn) = .ok (st, ess) ∧
      st.value = some (turnedValue c.min c.max c.step p₀ v₀ ps) ∧
      (sets ess.flatten).getLast?.getD v₀ = turnedValue c.min c.max c.step p₀ v₀ ps := by
  have key : ∀ (ps : List Int) (p v : Int) (s : Encoder.State), (∀ q ∈ p :: ps, pyInt (q * c.step) ≠ -1) →
      s.lastPos = pyInt (p * c.step) → s.value = some v → (c.min ≤ v ∧ v ≤ c.max) →
      (s.lastValue = some (-1) ∨ s.lastValue = some v) →
      ∃ st ess, run c s (ps.map .turn) = .ok (st, ess) ∧
        st.value = some (turnedValue c.min c.max c.step p v ps) ∧
        (sets ess.flatten).getLast?.getD v = turnedValue c.min c.max c.step p v ps := by
    intro ps
    induction ps with
    | nil => intro p v s _ _ hv _ _; exact ⟨s, [], rfl, hv, rfl⟩
    | cons q ps ih =>
      intro p v s hpos hl hval hr hlv
      have hlim := clamp_eq hmax (v + (pyInt (q * c.step) - pyInt (p * c.step)))
      have hrange := clamp_range hmax (v + (pyInt (q * c.step) - pyInt (p * c.step)))
      have hpp := hpos p (by simp)
      have hstep : ∃ s' es, step c s (.turn q) = .ok (s', es) ∧ s'.lastPos = pyInt (q * c.step) ∧
          s'.value = some (clamp c (v + (pyInt (q * c.step) - pyInt (p * c.step)))) ∧
          (s'.lastValue = some (-1) ∨
            s'.lastValue = some (clamp c (v + (pyInt (q * c.step) - pyInt (p * c.step))))) ∧
          (sets es).getLast?.getD v = clamp c (v + (pyInt (q * c.step) - pyInt (p * c.step))) := by
        simp only [step]
        rw [process_direct hp]
        have hl1 : ¬ s.lastPos = -1 := by rw [hl]; exact hpp
        simp only [if_neg hl1]
        by_cases hq : s.lastPos = pyInt (q * c.step)
        · rw [if_pos hq]
          have : clamp c (v + (pyInt (q * c.step) - pyInt (p * c.step))) = v := by
            rw [hlim, ← hl, hq]; unfold limit; omega
          rw [this]
          exact ⟨s, [], rfl, hq, hval, hlv, rfl⟩
        · rw [if_neg hq]
          obtain ⟨s', es, h1, h2, h3⟩ := turned_direct hp hs hval (pyInt (q * c.step)) (by rw [hl]; omega)
          rw [hl] at h3
          refine ⟨s', es, h1, h2, ?_⟩
          split at h3
          · rename_i heq
            obtain ⟨h4, h5, h6⟩ := h3
            have : v = clamp c (v + (pyInt (q * c.step) - pyInt (p * c.step))) := by
              rcases hlv with h | h
              · rw [h] at heq; simp only [Option.some.injEq] at heq; omega
              · rw [h] at heq; simpa using heq
            rw [← this]
            exact ⟨h4, by rw [h5]; exact hlv, by rw [h6]; rfl⟩
          · obtain ⟨h4, h5, h6⟩ := h3
            exact ⟨h4, .inr h5, by rw [h6]; rfl⟩
      obtain ⟨s', es, h1, h2, h3, h4, h5⟩ := hstep
      rw [hlim] at h3 h4 h5 hrange
      obtain ⟨st, ess, g1, g2, g3⟩ := ih q _ s' (fun q' hq' => hpos q' (List.mem_cons_of_mem _ hq')) h2 h3 hrange h4
      refine ⟨st, es :: ess, ?_, g2, ?_⟩
      · simp only [List.map_cons, run, h1, g1]
      · rw [List.flatten_cons, sets_append, List.getLast?_append]
        show _ = turnedValue c.min c.max c.step q _ ps
        rw [← g3]
        cases hg : (sets ess.flatten).getLast? with
        | none =>
          simp only [Option.none_or, Option.getD_none]
          exact h5
        | some w => simp
  have h0 : run c {} (.device (some v₀) :: .turn p₀ :: ps.map .turn) =
      match run c { value := some v₀, lastPos := pyInt (p₀ * c.step) } (ps.map .turn) with
      | .error e => .error e
      | .ok (st, ess) => .ok (st, [] :: [] :: ess) := by
    simp only [run, step]
    rw [process_direct hp]
    simp only [if_true]
    cases run c { value := some v₀, lastPos := pyInt (p₀ * c.step) } (ps.map .turn) with
    | error e => rfl
    | ok r => rfl
  obtain ⟨st, ess, g1, g2, g3⟩ := key ps p₀ v₀ { value := some v₀, lastPos := pyInt (p₀ * c.step) } hpos rfl rfl hv
    (.inl rfl)
  rw [g1] at h0
  exact ⟨st, [] :: [] :: ess, h0, g2, by simpa [sets] using g3⟩

example : (run exEncoder {} (.device (some 64) :: .turn 10 :: [11, 14, 80].map .turn)).map
    (fun r => (r.1.value, r.2.map sets)) = .ok (some 127, [[], [], [65], [68], [127]]) := by decide +kernel

/-- C40. With preselection, once a value has been adjusted, every further turning changes the adjusted value by the
turned amount, limited to the range. -/
theorem C40_preselect (c : Encoder.Config) (hp : c.preselect = true) (hs : c.scale = none) (hr : c.resetMapping = false)
    (hmax : c.min ≤ c.max) (s : Encoder.State) (v : Int) (hv : s.lastValue = some v) (hr' : c.min ≤ v ∧ v ≤ c.max)
    (p : Int) (hl : s.lastPos = pyInt (p * c.step)) (hl' : s.lastPos ≠ -1) (q : Int) :
    ∃ s' es, step c s (.turn q) = .ok (s', es) ∧
      s'.lastValue = some (limit c.min c.max (v + (pyInt (q * c.step) - pyInt (p * c.step)))) ∧
      s'.lastPos = pyInt (q * c.step) ∧ sets es = [] := by
  have hcr : checkReset c s = .ok (s, []) := by simp [checkReset, hr]
  have hlim := clamp_eq hmax (v + (pyInt (q * c.step) - pyInt (p * c.step)))
  rw [← hlim]
  simp only [step, process]
  rw [if_neg hl', hcr]
  simp only
  by_cases hq : s.lastPos = pyInt (q * c.step)
  · rw [if_pos hq]
    have : clamp c (v + (pyInt (q * c.step) - pyInt (p * c.step))) = v := by
      rw [hlim, ← hl, hq]; unfold limit; omega
    rw [this]
    exact ⟨s, [], rfl, hv, hq, rfl⟩
  · rw [if_neg hq, ← hl]
    have hval : ∃ gv, getValue c s = .ok gv := by unfold getValue; rw [hs]; exact ⟨_, rfl⟩
    obtain ⟨gv, hgv⟩ := hval
    have hst : (if gv = none then setValue c s 0 else s).lastValue = s.lastValue ∧
        (if gv = none then setValue c s 0 else s).lastPos = s.lastPos := by
      split
      · unfold setValue; split <;> exact ⟨rfl, rfl⟩
      · exact ⟨rfl, rfl⟩
    simp only [turned, hgv, hp, if_true]
    generalize (if gv = none then setValue c s 0 else s) = t at hst
    rw [hst.1, hst.2, hv]
    simp only
    generalize clamp c (v + (pyInt (q * c.step) - s.lastPos)) = w
    by_cases hw : v = w
    · subst hw
      exact ⟨{ t with lastPos := pyInt (q * c.step), lastValue := some v }, [], by simp, rfl, rfl, rfl⟩
    · rw [if_pos (by simp [hw])]
      refine ⟨_, _, rfl, rfl, rfl, ?_⟩
      cases c.hasPreview <;> rfl

example : (run exEncoderPre {} [.device (some 800), .cancel, .turn 0, .turn 1, .turn 3]).map
    (fun r => r.1.lastValue) = .ok (some 1040) := by decide +kernel

/-- C40 fails after a change on the device: if turning leads back to the value the encoder has set last, nothing is sent
although the device has another value by now. Here, the device goes from 65 to 64 on its own and the step from 64 to
65 is lost. -/
theorem C40_step_lost :
    (run exEncoder {} [.device (some 64), .turn 10, .turn 11, .device (some 64), .turn 12]).map
      (fun r => (r.1.value, r.2.map sets)) = .ok (some 64, [[], [], [65], [], []]) := by decide +kernel

/-- C40 fails when leaving the position -1 (times step width): it is taken for "no position yet". -/
theorem C40_position_lost :
    (run exEncoder {} [.device (some 64), .turn 0, .turn (-1), .turn (-2)]).map
      (fun r => (r.1.value, r.2.map sets)) = .ok (some 63, [[], [], [63], []]) := by decide +kernel

/-- C40 fails for the first preselection: it does not start from the current value of the parameter (8000 here, which
should become 8080) but from -1. -/
theorem C40_preselect_start :
    (run exEncoderPre {} [.device (some 8000), .turn 0, .turn 1, .accept]).map (fun r => r.2.map sets) =
      .ok [[], [], [], [79]] := by decide +kernel

/-! ### C41 -/

/-- C41. With an accept action, nothing but accepting sends anything. -/
theorem C41_turning (c : Encoder.Config) (hp : c.preselect = true) (s st : Encoder.State) (o : Op) (ho : o ≠ .accept)
    (es : List Eff) (h : step c s o = .ok (st, es)) : sets es = [] := by
  cases o with
  | turn p =>
    obtain ⟨_, st₁, es₁, _, hcr, _, hcase⟩ := process_ok h
    have h1 := (checkReset_ok hcr).1
    rcases hcase with ⟨_, _, rfl⟩ | ⟨_, es₂, ht, rfl⟩
    · exact h1
    · obtain ⟨_, _, _, _, _, _, _, hc⟩ := turned_ok ht
      rw [sets_append, h1, List.nil_append]
      rcases hc with ⟨_, _, rfl⟩ | ⟨_, _, h2, _⟩ | ⟨_, hp', _⟩
      · rfl
      · exact h2
      · rw [hp] at hp'; simp at hp'
  | device v => simp only [step, Except.ok.injEq, Prod.mk.injEq] at h; rw [← h.2]; rfl
  | resetMap v => simp only [step, Except.ok.injEq, Prod.mk.injEq] at h; rw [← h.2]; rfl
  | accept => exact absurd rfl ho
  | cancel => exact (cancel_ok h).1

/-- C41. Accepting or cancelling ends the preselection: until the encoder is turned again, accepting (as often as you
like) sends nothing, whatever the device does. -/
theorem C41_once (c : Encoder.Config) (hp : c.preselect = true) (h mid : List Op) (o : Op)
    (ho : o = .accept ∨ o = .cancel) (hm : ∀ o ∈ mid, o.isTurn = false) (st : Encoder.State) (ess : List (List Eff))
    (hr : run c {} (h ++ [o] ++ mid) = .ok (st, ess)) : ∀ es ∈ ess.drop (h.length + 1), sets es = [] := by
  obtain ⟨st₁, e₁, e₂, h1, h2, rfl⟩ := run_append hr
  obtain ⟨st₂, e₃, e₄, h3, h4, rfl⟩ := run_append h1
  obtain ⟨es, hs, rfl⟩ := run_single h4
  have hlen : ∀ (h : List Op) (s s' : Encoder.State) (e : List (List Eff)), run c s h = .ok (s', e) →
      e.length = h.length := by
    intro h
    induction h with
    | nil =>
      intro s s' e hr
      simp only [run, Except.ok.injEq, Prod.mk.injEq] at hr
      rw [← hr.2]; rfl
    | cons o h ih =>
      intro s s' e hr
      obtain ⟨_, _, _, _, hr', rfl⟩ := run_cons_ok hr
      simp [ih _ _ _ hr']
  have hl := hlen h _ _ _ h3
  have hd : (e₃ ++ [es] ++ e₂).drop (h.length + 1) = e₂ := by
    rw [← hl]
    have : (e₃ ++ [es]).length = e₃.length + 1 := by simp
    rw [← this, List.drop_left]
  rw [hd]
  -- a state without a preselection to be sent
  have key : ∀ (mid : List Op), (∀ o ∈ mid, o.isTurn = false) → ∀ (s s' : Encoder.State) (e : List (List Eff)),
      (s.active = false ∨ s.lastValue = none ∨ s.lastValue = some (-1)) →
      run c s mid = .ok (s', e) → ∀ es ∈ e, sets es = [] := by
    intro mid
    induction mid with
    | nil =>
      intro _ s s' e _ hr
      simp only [run, Except.ok.injEq, Prod.mk.injEq] at hr
      rw [← hr.2]; simp
    | cons o mid ih =>
      intro hm s s' e hi hr es hes
      obtain ⟨t, es', rest, hs, hr', rfl⟩ := run_cons_ok hr
      have ho := hm o (by simp)
      have hone : (t.active = false ∨ t.lastValue = none ∨ t.lastValue = some (-1)) ∧ sets es' = [] := by
        cases o with
        | turn p => simp [Op.isTurn] at ho
        | device v =>
          simp only [step, Except.ok.injEq, Prod.mk.injEq] at hs
          obtain ⟨rfl, rfl⟩ := hs; exact ⟨hi, rfl⟩
        | resetMap v =>
          simp only [step, Except.ok.injEq, Prod.mk.injEq] at hs
          obtain ⟨rfl, rfl⟩ := hs; exact ⟨hi, rfl⟩
        | accept =>
          simp only [step, hp, if_true] at hs
          rcases accept_ok hs with ⟨rfl, rfl, _⟩ | ⟨v, hv, hv', _, _, _, hact, _⟩
          · exact ⟨hi, rfl⟩
          · rcases hi with h | h | h
            · rw [hact hp] at h; simp at h
            · rw [h] at hv; simp at hv
            · rw [h] at hv; simp only [Option.some.injEq] at hv; exact absurd hv.symm hv'
        | cancel =>
          obtain ⟨h1, h2, _⟩ := cancel_ok hs
          exact ⟨.inl h2, h1⟩
      rcases List.mem_cons.1 hes with rfl | hes
      · exact hone.2
      · exact ih (fun o ho => hm o (List.mem_cons_of_mem _ ho)) _ _ _ hone.1 hr' es hes
  refine key mid hm _ _ _ ?_ h2
  rcases ho with rfl | rfl
  · simp only [step, hp, if_true] at hs
    rcases accept_ok hs with ⟨rfl, _, h | h | h⟩ | ⟨_, _, _, _, h, _⟩
    · exact .inr (.inl h)
    · exact .inr (.inr h)
    · exact .inl h.2
    · exact .inl h
  · exact .inl (cancel_ok hs).2.1

/-- C41. When a value has been adjusted by turning, accepting it sends exactly this value, and it becomes the value of
the parameter. In between, the device may change the value; it does not matter. -/
theorem C41_accept (c : Encoder.Config) (hp : c.preselect = true) (hk : ∀ k, c.scale = some k → 0 < k)
    (s : Encoder.State) (v : Int) (ha : s.active = true) (hl : s.lastValue = some v) (hv : v ≠ -1)
    (devs : List (Option Int)) :
    ∃ st ess es, run c s (devs.map .device ++ [.accept]) = .ok (st, ess ++ [es]) ∧ sets es = [v] ∧
      getValue c st = .ok (some v) ∧ (∀ e ∈ ess, sets e = []) := by
  induction devs generalizing s with
  | nil =>
    have hg := getValue_setValue hk s v
    have hacc : ∃ st es, accept c s = .ok (st, es) := by
      unfold accept
      rw [hl]
      simp only
      rw [if_neg hv, if_neg (by simp [ha])]
      unfold cancel
      rw [hg]
      exact ⟨_, _, rfl⟩
    obtain ⟨st, es, h⟩ := hacc
    refine ⟨st, [], es, by simp [run, step, hp, h], ?_⟩
    rcases accept_ok h with ⟨_, _, h | h | h⟩ | ⟨w, hw, _, h1, _, _, _, _, h2⟩
    · rw [hl] at h; simp at h
    · rw [hl] at h; simp only [Option.some.injEq] at h; exact absurd h hv
    · rw [ha] at h; simp at h
    · rw [hl] at hw
      simp only [Option.some.injEq] at hw
      subst hw
      refine ⟨h1, ?_, by simp⟩
      rw [← hg]; unfold getValue; rw [h2]
  | cons d devs ih =>
    obtain ⟨st, ess, es, h1, h2, h3, h4⟩ := ih { s with value := d } ha hl
    refine ⟨st, [] :: ess, es, ?_, h2, h3, ?_⟩
    · simp only [List.map_cons, List.cons_append, run, step, h1]
    · intro e he
      rcases List.mem_cons.1 he with rfl | he
      · rfl
      · exact h4 e he

/-- C41. Every turning which changes the adjusted value makes it the value to be accepted. -/
theorem C41_adjusted (c : Encoder.Config) (hp : c.preselect = true) (hmax : c.min ≤ c.max) (s st : Encoder.State) (q : Int) (es : List Eff)
    (h : step c s (.turn q) = .ok (st, es)) (hne : st.lastValue ≠ s.lastValue) (hr : c.resetMapping = false) :
    st.active = true ∧ ∃ v, st.lastValue = some v ∧ c.min ≤ v ∧ v ≤ c.max ∧ (c.hasPreview = true → .preview v ∈ es) := by
  obtain ⟨s₀, st₁, es₁, hs₀, hcr, _, hcase⟩ := process_ok h
  have h0 : s₀.lastValue = s.lastValue := by rw [hs₀]; split <;> rfl
  obtain ⟨_, _, _, h1 | ⟨_, _, h1⟩⟩ := checkReset_ok hcr
  · rcases hcase with ⟨_, rfl, _⟩ | ⟨_, es₂, ht, rfl⟩
    · exact absurd (h1.2.trans h0) hne
    · obtain ⟨gv, st₂, b, hg', h2, hb', _, hc⟩ := turned_ok ht
      have hl2 : st₂.lastValue = st₁.lastValue := by
        rw [h2]; split
        · unfold setValue; split <;> rfl
        · rfl
      rcases hc with ⟨_, rfl, _⟩ | ⟨hne', _, _, h3⟩ | ⟨_, hp', _⟩
      · exact absurd (hl2.trans (h1.2.trans h0)) hne
      · refine ⟨by rw [h3], clamp c (b + (pyInt (q * c.step) - st₁.lastPos)), by rw [h3],
          (clamp_range hmax _).1, (clamp_range hmax _).2, ?_⟩
        · intro hpre
          refine List.mem_append_right _ ?_
          have ht' := ht
          unfold turned at ht'
          rw [hg'] at ht'
          simp only [hp, if_true] at ht' hb'
          simp only [Except.ok.injEq] at hb'
          have hlv : (if gv = none then setValue c st₁ 0 else st₁).lastValue = st₁.lastValue ∧
              (if gv = none then setValue c st₁ 0 else st₁).lastPos = st₁.lastPos := by
            split
            · unfold setValue; split <;> exact ⟨rfl, rfl⟩
            · exact ⟨rfl, rfl⟩
          generalize (if gv = none then setValue c st₁ 0 else st₁) = t at ht' hlv
          rw [hlv.1, hlv.2, hb'] at ht'
          rw [hb'] at hne'
          simp only [if_pos hne', hpre, if_true, Except.ok.injEq, Prod.mk.injEq] at ht'
          rw [← ht'.2]; simp
      · rw [hp] at hp'; simp at hp'
  · rw [hr] at h1; simp at h1

example : (run exEncoderPre {} [.device (some 800), .cancel, .turn 0, .turn 1, .turn 3, .accept, .accept]).map
    (fun r => r.2.map sets) = .ok [[], [], [], [], [], [1040], []] := by decide +kernel

/-! ### C67 -/

/-- C67. For an ordinary parameter: if the value is known whenever the user cancels (and is not lost before), no history
raises an exception. -/
theorem C67_no_exception_partial (c : Encoder.Config) (hs : c.scale = none) (v₀ : Int)
    (h : List Op) (hd : ∀ o ∈ h, o ≠ .device none) :
    ∃ r, run c {} (.device (some v₀) :: h) = .ok r := by
  have key : ∀ (h : List Op), (∀ o ∈ h, o ≠ .device none) → ∀ s : Encoder.State,
      ((∃ v, s.value = some v) ∧ ∃ v, s.lastValue = some v) → ∃ r, run c s h = .ok r := by
    intro h
    induction h with
    | nil => intro _ s _; exact ⟨_, rfl⟩
    | cons o h ih =>
      intro hd s hst
      obtain ⟨⟨v, hv⟩, ⟨l, hl⟩⟩ := hst
      -- cancelling and accepting
      have hcan : ∀ (s : Encoder.State) (v : Int) (i : Bool), s.value = some v →
          ∃ s' es, cancel c s i = .ok (s', es) ∧ s'.value = some v ∧ s'.lastValue = some v := by
        intro s v i hv
        exact ⟨{ s with active := false, lastValue := some v }, _, by simp [cancel, getValue, hs, hv]; rfl, hv, rfl⟩
      have hacc : ∀ s : Encoder.State, (∃ v, s.value = some v) → (∃ v, s.lastValue = some v) →
          ∃ s' es, accept c s = .ok (s', es) ∧ (∃ v, s'.value = some v) ∧ ∃ v, s'.lastValue = some v := by
        intro s hv ⟨l, hl⟩
        unfold accept
        rw [hl]
        simp only
        split
        · exact ⟨_, _, rfl, hv, l, hl⟩
        · split
          · exact ⟨_, _, rfl, hv, l, hl⟩
          · obtain ⟨s', es, h1, h2, h3⟩ := hcan (setValue c s l) l false (by simp [setValue, hs])
            rw [h1]
            exact ⟨_, _, rfl, ⟨l, h2⟩, l, h3⟩
      have hstep : ∃ s' es, step c s o = .ok (s', es) ∧ (∃ v, s'.value = some v) ∧ ∃ v, s'.lastValue = some v := by
        cases o with
        | turn p =>
          simp only [step, process]
          generalize hst₀ : (if s.lastPos = -1 then { s with lastPos := pyInt (p * c.step) } else s) = s₀
          have hv₀ : s₀.value = some v := by rw [← hst₀]; split <;> exact hv
          have hl₀ : s₀.lastValue = some l := by rw [← hst₀]; split <;> exact hl
          have hcr : ∃ s₁ es₁, checkReset c s₀ = .ok (s₁, es₁) := by
            unfold checkReset
            split
            · split
              · obtain ⟨s', es, h1, _⟩ := hcan s₀ v true hv₀
                rw [h1]
                simp only
                by_cases hn : s₀.resetValue ≠ none ∧ s₀.resetLast ≠ none
                · rw [if_pos hn]; exact ⟨_, _, rfl⟩
                · rw [if_neg hn]; exact ⟨_, _, rfl⟩
              · exact ⟨_, _, rfl⟩
            · exact ⟨_, _, rfl⟩
          obtain ⟨s₁, es₁, hcr⟩ := hcr
          obtain ⟨hc1, hc2, hcv, hcl⟩ := checkReset_ok hcr
          rw [hcr]
          simp only
          have hv₁ := hcv.trans hv₀
          have hl₁ : ∃ l, s₁.lastValue = some l := by
            rcases hcl with ⟨_, h⟩ | ⟨_, h, _⟩
            · exact ⟨l, h.trans hl₀⟩
            · simp only [getValue, hs, Except.ok.injEq] at h
              exact ⟨v, by rw [← h, hv₀]⟩
          clear hcr hc1 hc2 hcv hcl hst₀ hv₀ hl₀ hl hv
          clear l s₀
          obtain ⟨l, hl₀⟩ := hl₁
          have hv₀ := hv₁
          revert hv₀ hl₀
          generalize s₁ = s₀
          intro hl₀ hv₀
          split
          · exact ⟨_, _, rfl, ⟨v, hv₀⟩, l, hl₀⟩
          · have : ∃ s' es, turned c s₀ (pyInt (p * c.step)) = .ok (s', es) ∧ (∃ v, s'.value = some v) ∧
                ∃ v, s'.lastValue = some v := by
              unfold turned
              have hg : getValue c s₀ = .ok (some v) := by simp [getValue, hs, hv₀]
              have hg' : ∀ q, getValue c { s₀ with lastPos := q } = .ok (some v) := by
                intro q; simp [getValue, hs, hv₀]
              rw [hg]
              simp only [reduceCtorEq, if_false]
              rw [hg' (pyInt (p * c.step)), hl₀]
              have fin : ∀ w : Int, ∃ s' es,
                  (if (some l : Option Int) ≠ some w then
                    if c.preselect = true then
                      Except.ok (({ s₀ with lastPos := pyInt (p * c.step), lastValue := some w, active := true } : Encoder.State),
                        if c.hasPreview then [Eff.preview w] else [])
                    else
                      match accept c { s₀ with lastPos := pyInt (p * c.step), lastValue := some w } with
                      | .error e => .error e
                      | .ok (st', es) => .ok (st', es ++ if c.hasPreview then [Eff.preview w] else [])
                  else Except.ok (({ s₀ with lastPos := pyInt (p * c.step) } : Encoder.State), [])) =
                    .ok (s', es) ∧
                  (∃ v, s'.value = some v) ∧ ∃ v, s'.lastValue = some v := by
                intro w
                split
                · split
                  · exact ⟨_, _, rfl, ⟨v, hv₀⟩, w, rfl⟩
                  · obtain ⟨s', es, h1, h2, h3⟩ := hacc { s₀ with lastPos := pyInt (p * c.step), lastValue := some w }
                      ⟨v, hv₀⟩ ⟨w, rfl⟩
                    rw [h1]
                    exact ⟨_, _, rfl, h2, h3⟩
                · exact ⟨_, _, rfl, ⟨v, hv₀⟩, l, hl₀⟩
              cases hp : c.preselect with
              | true =>
                have := fin (clamp c (l + (pyInt (p * c.step) - s₀.lastPos)))
                simp only [hp, if_true] at this ⊢
                rw [hl₀] at *
                exact this
              | false =>
                have := fin (clamp c (v + (pyInt (p * c.step) - s₀.lastPos)))
                simp only [hp, Bool.false_eq_true, if_false] at this ⊢
                rw [hl₀] at *
                exact this
            obtain ⟨s', es, h1, h2, h3⟩ := this
            rw [h1]
            exact ⟨_, _, rfl, h2, h3⟩
        | device d =>
          cases d with
          | none => exact absurd rfl (hd (.device none) (by simp))
          | some w => exact ⟨_, _, rfl, ⟨w, rfl⟩, l, hl⟩
        | resetMap d => exact ⟨_, _, rfl, ⟨v, hv⟩, l, hl⟩
        | accept =>
          simp only [step]
          split
          · exact hacc s ⟨v, hv⟩ ⟨l, hl⟩
          · exact ⟨_, _, rfl, ⟨v, hv⟩, l, hl⟩
        | cancel =>
          obtain ⟨s', es, h1, h2, h3⟩ := hcan s v true hv
          exact ⟨s', es, h1, ⟨v, h2⟩, v, h3⟩
      obtain ⟨s', es, h1, h2, h3⟩ := hstep
      obtain ⟨r, hr⟩ := ih (fun o ho => hd o (List.mem_cons_of_mem _ ho)) s' ⟨h2, h3⟩
      exact ⟨(r.1, es :: r.2), by simp only [run, h1, hr]⟩
  obtain ⟨r, hr⟩ := key h hd { value := some v₀ } ⟨⟨v₀, rfl⟩, -1, rfl⟩
  exact ⟨(r.1, [] :: r.2), by simp only [run, step, hr]⟩

/-- C67 fails if the user cancels before the first value has arrived: turning then raises an exception. -/
theorem C67_cancel_first :
    run exEncoderPre {} [.cancel, .turn 0, .turn 1] = .error .typeError := by decide +kernel

/-- C67 fails for the bank encoder before the first rig ID has arrived. -/
theorem C67_bank_first : run exEncoderBank {} [.turn 0, .turn 2] = .error .typeError := by decide +kernel

end PySwitch.Props
