import Verif.Spec.Analog
import Verif.Lemmas.Num
/-
Helper lemmas for analog inputs.
-/
namespace PySwitch.Analog

theorem factor_pos {c : Config} (h : 0 ≤ c.max) : 0 < c.factor := by
  unfold Config.factor
  have : (0 : Rat) < ((c.max + 1 : Int) : Rat) := by exact_mod_cast (by omega)
  rw [Rat.lt_div_iff this, Rat.zero_mul]
  decide

theorem stepWidth_pos {c : Config} (h : 1 ≤ c.numSteps ∧ c.numSteps ≤ 65536) : 1 ≤ c.stepWidth := by
  unfold Config.stepWidth
  have hn : (0 : Rat) < (c.numSteps : Rat) := by exact_mod_cast (by omega)
  have h1 : (1 : Rat) ≤ 65536 / (c.numSteps : Rat) := by
    rw [← Rat.not_lt]
    intro hlt
    have : (65536 : Rat) / c.numSteps * c.numSteps < 1 * c.numSteps := Rat.mul_lt_mul_of_pos_right hlt hn
    rw [Rat.div_mul_cancel (by grind), Rat.one_mul] at this
    have : ((65536 : Int) : Rat) < (c.numSteps : Rat) := this
    rw [Rat.intCast_lt_intCast] at this
    omega
  have := pyInt_mono (by decide) h1
  rwa [show (1 : Rat) = ((1 : Int) : Rat) from rfl, pyInt_intCast] at this

/-- The value before clamping. -/
def scaled (c : Config) (value : Int) : Int :=
  pyInt (((pyRound ((value : Rat) / c.stepWidth) * c.stepWidth : Int) : Rat) / c.factor)

def clamp (c : Config) (v : Int) : Int :=
  let v := if v < 0 then 0 else v
  if v > c.max then c.max else v

theorem clamp_range {c : Config} (h : 0 ≤ c.max) (v : Int) : 0 ≤ clamp c v ∧ clamp c v ≤ c.max := by
  unfold clamp; simp only; split <;> split <;> omega

theorem clamp_mono {c : Config} {v w : Int} (h : v ≤ w) : clamp c v ≤ clamp c w := by
  unfold clamp; simp only; repeat' split
  all_goals omega

theorem output_eq {c : Config} (ht : c.transfer = none) (hs : c.stepWidth ≠ 0) (value : Int) :
    output c value =
      .ok (if c.below value then 0
        else clamp c (scaled c value)) := by
  unfold output
  rw [ht]
  simp only
  cases c.below value with
  | true => rfl
  | false => rw [if_neg (by simp), if_neg hs]; rfl

theorem scaled_mono {c : Config} (hm : 0 ≤ c.max) (hs : 1 ≤ c.stepWidth) {a b : Int} (ha : 0 ≤ a) (h : a ≤ b) :
    scaled c a ≤ scaled c b := by
  unfold scaled
  have hsr : (0 : Rat) < (c.stepWidth : Rat) := by exact_mod_cast (by omega)
  have har : (0 : Rat) ≤ (a : Rat) := by exact_mod_cast ha
  have h1 := pyRound_mono (rat_div_le_div hsr (show (a : Rat) ≤ (b : Rat) by exact_mod_cast h))
  have h0 := pyRound_nonneg (rat_div_nonneg hsr har)
  have h2 := Int.mul_le_mul_of_nonneg_right h1 (show 0 ≤ c.stepWidth by omega)
  have h3 := Int.mul_nonneg h0 (show 0 ≤ c.stepWidth by omega)
  refine pyInt_mono (rat_div_nonneg (factor_pos hm) ?_) (rat_div_le_div (factor_pos hm) ?_)
  · exact_mod_cast h3
  · exact_mod_cast h2

theorem scaled_zero (c : Config) : scaled c 0 = 0 := by
  have h0 : ∀ x : Rat, (0 : Rat) / x = 0 := fun x => by rw [Rat.div_def, Rat.zero_mul]
  unfold scaled
  have : (((0 : Int) : Rat) / c.stepWidth) = 0 := h0 _
  rw [this, show pyRound 0 = 0 from pyRound_intCast 0, Int.zero_mul]
  have : (((0 : Int) : Rat) / c.factor) = 0 := h0 _
  rw [this]
  exact pyInt_intCast 0

theorem scaled_top {c : Config} (hm : 0 ≤ c.max) (hs : 1 ≤ c.stepWidth) (hd : c.stepWidth ∣ 65536) :
    scaled c 65536 = c.max + 1 := by
  obtain ⟨k, hk⟩ := hd
  unfold scaled
  have hsr : (c.stepWidth : Rat) ≠ 0 := by
    have : (0 : Rat) < (c.stepWidth : Rat) := by exact_mod_cast (by omega)
    grind
  have h1 : ((65536 : Int) : Rat) / (c.stepWidth : Rat) = (k : Rat) := by
    rw [hk, Rat.intCast_mul, Rat.mul_comm, Rat.div_def, Rat.mul_assoc, Rat.mul_inv_cancel _ hsr, Rat.mul_one]
  rw [h1, pyRound_intCast, Int.mul_comm, ← hk]
  unfold Config.factor
  have hmr : ((c.max + 1 : Int) : Rat) ≠ 0 := by
    have : (0 : Rat) < ((c.max + 1 : Int) : Rat) := by exact_mod_cast (by omega)
    grind
  have h2 : ((65536 : Int) : Rat) / (65536 / ((c.max + 1 : Int) : Rat)) = ((c.max + 1 : Int) : Rat) := by
    have h65 : ((65536 : Int) : Rat) = 65536 := rfl
    rw [h65, Rat.div_def, Rat.div_def, Rat.inv_mul_rev, Rat.inv_inv, ← Rat.mul_assoc, Rat.mul_comm 65536,
      Rat.mul_assoc, Rat.mul_inv_cancel _ (by decide), Rat.mul_one]
  rw [h2, pyInt_intCast]

/-- The calibration invariant. -/
structure CalInv (st : State) (vs : List Int) : Prop where
  cal : st.cal = bounds vs
  fac : ∀ lo hi, st.cal = some (lo, hi) → lo ≤ hi ∧ (lo < hi → st.calFactor = some (65536 / ((hi - lo : Int) : Rat)))

theorem bounds_snoc (vs : List Int) (v : Int) :
    bounds (vs ++ [v]) = match bounds vs with
      | none => some (v, v)
      | some (lo, hi) => some (min lo v, max hi v) := by
  cases vs with
  | nil => rfl
  | cons w vs => simp [bounds, List.foldl_append]

theorem widen_inv {st : State} {vs : List Int} (h : CalInv st vs) (v : Int) :
    CalInv { st with cal := some (widen st.cal st.calFactor v).1, calFactor := (widen st.cal st.calFactor v).2 }
      (vs ++ [v]) := by
  have hc := h.cal
  have hf := h.fac
  constructor
  · simp only
    rw [bounds_snoc, ← hc]
    cases hcal : st.cal with
    | none => rfl
    | some b =>
      obtain ⟨lo, hi⟩ := b
      have := (hf lo hi hcal).1
      simp only [widen]
      by_cases h1 : v < lo
      · rw [if_pos h1]; simp only
        rw [if_neg (by omega)]; simp only [Option.some.injEq, Prod.mk.injEq]; omega
      · rw [if_neg h1]; simp only
        by_cases h2 : hi < v
        · rw [if_pos h2]; simp only [Option.some.injEq, Prod.mk.injEq]; omega
        · rw [if_neg h2]; simp only [Option.some.injEq, Prod.mk.injEq]; omega
  · intro lo' hi' heq
    simp only at heq ⊢
    cases hcal : st.cal with
    | none =>
      rw [hcal] at heq
      simp only [widen, Option.some.injEq, Prod.mk.injEq] at heq
      omega
    | some b =>
      obtain ⟨lo, hi⟩ := b
      have hle := (hf lo hi hcal).1
      have hfac := (hf lo hi hcal).2
      rw [hcal] at heq
      simp only [widen] at heq ⊢
      by_cases h1 : v < lo
      · rw [if_pos h1] at heq ⊢; simp only at heq ⊢
        rw [if_neg (by omega)] at heq ⊢
        simp only [Option.some.injEq, Prod.mk.injEq] at heq
        obtain ⟨rfl, rfl⟩ := heq
        exact ⟨by omega, fun _ => rfl⟩
      · rw [if_neg h1] at heq ⊢; simp only at heq ⊢
        by_cases h2 : hi < v
        · rw [if_pos h2] at heq ⊢
          simp only [Option.some.injEq, Prod.mk.injEq] at heq
          obtain ⟨rfl, rfl⟩ := heq
          exact ⟨by omega, fun _ => rfl⟩
        · rw [if_neg h2] at heq ⊢
          simp only [Option.some.injEq, Prod.mk.injEq] at heq
          obtain ⟨rfl, rfl⟩ := heq
          exact ⟨hle, hfac⟩

/-- The input of the output stage in terms of all readings regarded. -/
def calibrated (lo hi v : Int) : Int := pyInt (((v - lo : Int) : Rat) * (65536 / ((hi - lo : Int) : Rat)))

theorem div_pos' {d : Int} (h : 0 < d) : (0 : Rat) < 65536 / (d : Rat) := by
  have hd : (0 : Rat) < (d : Rat) := by exact_mod_cast h
  rw [Rat.lt_div_iff hd, Rat.zero_mul]; decide

theorem calibrated_mono {lo hi a b : Int} (h : lo < hi) (ha : lo ≤ a) (hab : a ≤ b) :
    calibrated lo hi a ≤ calibrated lo hi b := by
  have hp := div_pos' (show 0 < hi - lo by omega)
  have h1 : (0 : Rat) ≤ ((a - lo : Int) : Rat) := by exact_mod_cast (by omega)
  have h2 : ((a - lo : Int) : Rat) ≤ ((b - lo : Int) : Rat) := by exact_mod_cast (by omega)
  exact pyInt_mono (Rat.mul_nonneg h1 (by grind)) (Rat.mul_le_mul_of_nonneg_right h2 (by grind))

theorem calibrated_lo {lo hi : Int} : calibrated lo hi lo = 0 := by
  unfold calibrated
  rw [Int.sub_self, show ((0 : Int) : Rat) = 0 from rfl, Rat.zero_mul]
  exact pyInt_intCast 0

theorem calibrated_hi {lo hi : Int} (h : lo < hi) : calibrated lo hi hi = 65536 := by
  unfold calibrated
  have : ((hi - lo : Int) : Rat) ≠ 0 := by
    have : (0 : Rat) < ((hi - lo : Int) : Rat) := by exact_mod_cast (by omega)
    grind
  rw [Rat.mul_comm, Rat.div_mul_cancel this]
  exact pyInt_intCast 65536

theorem exceeded_pos {p : PeriodCounter} {now : Int} (h : p.lastReset + p.interval < now) :
    p.exceeded now = (true, { p with lastReset := now }) := by simp [PeriodCounter.exceeded, h]

theorem exceeded_neg {p : PeriodCounter} {now : Int} (h : ¬ p.lastReset + p.interval < now) :
    p.exceeded now = (false, p) := by simp [PeriodCounter.exceeded, h]

theorem process_neg {c : Config} {st : State} {value now : Int}
    (h : ¬ st.period.lastReset + st.period.interval < now) : process c st value now = .ok (st, []) := by
  unfold process; simp only; rw [exceeded_neg h]; rfl

/-- The output stage, lines 104-127. -/
def send (c : Config) (st : State) (value : Int) : Except Err (State × List Int) :=
  match output c value with
  | .error x => .error x
  | .ok v => if st.last ≠ v then .ok ({ st with last := v }, [v]) else .ok (st, [])

theorem process_plain {c : Config} {st : State} {value now : Int} (hc : c.calibrate = false)
    (h : st.period.lastReset + st.period.interval < now) :
    process c st value now = send c { st with period := { st.period with lastReset := now } } value := by
  unfold process; simp only; rw [exceeded_pos h, hc]; rfl

theorem process_cal {c : Config} {st : State} {value now : Int} (hc : c.calibrate = true)
    (h : st.period.lastReset + st.period.interval < now) :
    process c st value now =
      let w := widen st.cal st.calFactor value
      let st' := { st with period := { st.period with lastReset := now }, cal := some w.1, calFactor := w.2 }
      if w.1.2 - w.1.1 < c.window then .ok (st', [])
      else match w.2 with
        | none => .error .attributeError
        | some f => send c st' (pyInt (((value - w.1.1 : Int) : Rat) * f)) := by
  unfold process; simp only; rw [exceeded_pos h, hc]; rfl

/-- Calibration in terms of the readings regarded so far. -/
theorem process_cal' {c : Config} {st : State} {value now : Int} (hc : c.calibrate = true) (hw : 1 ≤ c.window)
    (h : st.period.lastReset + st.period.interval < now) {vs : List Int} (hi : CalInv st vs) :
    ∃ lo hi st', bounds (vs ++ [value]) = some (lo, hi) ∧ CalInv st' (vs ++ [value]) ∧ lo ≤ value ∧ value ≤ hi ∧
      st'.last = st.last ∧ st'.period = { st.period with lastReset := now } ∧
      process c st value now = if hi - lo < c.window then .ok (st', []) else send c st' (calibrated lo hi value) := by
  have hinv := widen_inv hi value
  rw [process_cal hc h]
  simp only
  generalize widen st.cal st.calFactor value = w at hinv
  obtain ⟨⟨lo, hi'⟩, f⟩ := w
  have hb : bounds (vs ++ [value]) = some (lo, hi') := hinv.cal.symm
  have hrange : lo ≤ value ∧ value ≤ hi' := by
    rw [bounds_snoc] at hb
    cases hbv : bounds vs with
    | none => rw [hbv] at hb; simp at hb; omega
    | some b => rw [hbv] at hb; simp at hb; omega
  refine ⟨lo, hi', { st with period := { st.period with lastReset := now }, cal := some (lo, hi'), calFactor := f },
    hb, ⟨hinv.cal, hinv.fac⟩, hrange.1, hrange.2, rfl, rfl, ?_⟩
  simp only
  by_cases hlt : hi' - lo < c.window
  · rw [if_pos hlt, if_pos hlt]
  · rw [if_neg hlt, if_neg hlt]
    have hf := (hinv.fac lo hi' rfl).2 (by omega)
    simp only at hf
    subst hf
    rfl

theorem output_valid {c : Config} (hv : c.Valid) (value : Int) : ∃ v, output c value = .ok v := by
  cases ht : c.transfer with
  | some f => exact ⟨f value, by simp [output, ht]⟩
  | none => exact ⟨_, output_eq ht (by have := stepWidth_pos hv.steps; omega) value⟩

theorem output_range {c : Config} (hv : c.Valid) (ht : c.transfer = none) {value v : Int} (h : output c value = .ok v) :
    0 ≤ v ∧ v ≤ c.max := by
  rw [output_eq ht (by have := stepWidth_pos hv.steps; omega)] at h
  simp only [Except.ok.injEq] at h
  have := hv.max
  have := clamp_range this (scaled c value)
  generalize clamp c (scaled c value) = k at *
  split at h <;> omega

end PySwitch.Analog

namespace PySwitch.Analog

theorem run_cons_ok {c : Config} {st st' : State} {value now : Int} {rs sent}
    (h : run c st ((value, now) :: rs) = .ok (st', sent)) :
    ∃ st₁ vs rest, process c st value now = .ok (st₁, vs) ∧ run c st₁ rs = .ok (st', rest) ∧
      sent = vs.map (fun v => (now, v)) ++ rest := by
  simp only [run] at h
  cases hp : process c st value now with
  | error x => rw [hp] at h; simp at h
  | ok p =>
    obtain ⟨st₁, vs⟩ := p
    rw [hp] at h; simp only at h
    cases hr : run c st₁ rs with
    | error x => rw [hr] at h; simp at h
    | ok q =>
      obtain ⟨st₂, rest⟩ := q
      rw [hr] at h; simp only [Except.ok.injEq, Prod.mk.injEq] at h
      obtain ⟨rfl, rfl⟩ := h
      exact ⟨_, _, _, rfl, hr, rfl⟩

/-- `send` sends the output, if it is not the last one. -/
theorem send_ok {c : Config} {st st' : State} {value : Int} {vs : List Int} (h : send c st value = .ok (st', vs)) :
    output c value = .ok st'.last ∧ st'.period = st.period ∧ st'.cal = st.cal ∧ st'.calFactor = st.calFactor ∧
    (vs = [] ∧ st'.last = st.last ∨ vs = [st'.last] ∧ st'.last ≠ st.last) := by
  unfold send at h
  cases ho : output c value with
  | error x => rw [ho] at h; simp at h
  | ok v =>
    rw [ho] at h; simp only at h
    by_cases hl : st.last = v
    · rw [if_neg (by simp [hl])] at h
      simp only [Except.ok.injEq, Prod.mk.injEq] at h
      obtain ⟨rfl, rfl⟩ := h
      simp [hl]
    · rw [if_pos hl] at h
      simp only [Except.ok.injEq, Prod.mk.injEq] at h
      obtain ⟨rfl, rfl⟩ := h
      refine ⟨rfl, rfl, rfl, rfl, .inr ⟨rfl, fun h => hl h.symm⟩⟩

/-- What a reading does, whatever the configuration: it is ignored, or it is regarded and at most one value is sent,
which is an output and differs from the last one. -/
theorem process_ok {c : Config} {st st' : State} {value now : Int} {vs : List Int}
    (h : process c st value now = .ok (st', vs)) :
    (¬ st.period.lastReset + st.period.interval < now ∧ st' = st ∧ vs = []) ∨
    (st.period.lastReset + st.period.interval < now ∧ st'.period = { st.period with lastReset := now } ∧
      (vs = [] ∧ st'.last = st.last ∨
       vs = [st'.last] ∧ st'.last ≠ st.last ∧ ∃ x, output c x = .ok st'.last)) := by
  by_cases hn : st.period.lastReset + st.period.interval < now
  · right
    refine ⟨hn, ?_⟩
    have fin : ∀ st₁ x, st₁.period = { st.period with lastReset := now } → st₁.last = st.last →
        send c st₁ x = .ok (st', vs) → st'.period = { st.period with lastReset := now } ∧
        (vs = [] ∧ st'.last = st.last ∨ vs = [st'.last] ∧ st'.last ≠ st.last ∧ ∃ x, output c x = .ok st'.last) := by
      intro st₁ x hp hl hs
      obtain ⟨h1, h2, _, _, h3⟩ := send_ok hs
      refine ⟨by rw [h2, hp], ?_⟩
      rcases h3 with ⟨a, b⟩ | ⟨a, b⟩
      · exact .inl ⟨a, by rw [b, hl]⟩
      · exact .inr ⟨a, by rwa [hl] at b, x, h1⟩
    cases hc : c.calibrate with
    | false =>
      rw [process_plain hc hn] at h
      exact fin { st with period := { st.period with lastReset := now } } value (by rfl) (by rfl) h
    | true =>
      rw [process_cal hc hn] at h
      simp only at h
      split at h
      · simp only [Except.ok.injEq, Prod.mk.injEq] at h
        obtain ⟨rfl, rfl⟩ := h
        exact ⟨rfl, .inl ⟨rfl, rfl⟩⟩
      · split at h
        · simp at h
        · exact fin _ _ (by rfl) (by rfl) h
  · rw [process_neg hn] at h
    simp only [Except.ok.injEq, Prod.mk.injEq] at h
    exact .inl ⟨hn, h.1.symm, h.2.symm⟩

theorem run_last {c : Config} {st st' : State} {rs sent} (h : run c st rs = .ok (st', sent)) :
    st'.last = (current sent).getD st.last := by
  induction rs generalizing st st' sent with
  | nil =>
    simp only [run, Except.ok.injEq, Prod.mk.injEq] at h
    obtain ⟨rfl, rfl⟩ := h
    rfl
  | cons r rs ih =>
    obtain ⟨value, now⟩ := r
    obtain ⟨st₁, vs, rest, hp, hr, rfl⟩ := run_cons_ok h
    have := ih hr
    rw [this]
    have hone : st₁.last = (current (vs.map (fun v => (now, v)))).getD st.last := by
      rcases process_ok hp with ⟨_, rfl, rfl⟩ | ⟨_, _, ⟨rfl, hl⟩ | ⟨rfl, _⟩⟩
      · rfl
      · exact hl
      · rfl
    rw [hone]
    unfold current
    rw [List.getLast?_append]
    cases rest.getLast? <;> simp

theorem run_snoc {c : Config} {st : State} {rs : List (Int × Int)} {value now : Int} {st' st'' : State} {sent vs}
    (h : run c st rs = .ok (st', sent)) (hp : process c st' value now = .ok (st'', vs)) :
    run c st (rs ++ [(value, now)]) = .ok (st'', sent ++ vs.map (fun v => (now, v))) := by
  induction rs generalizing st sent with
  | nil =>
    simp only [run, Except.ok.injEq, Prod.mk.injEq] at h
    obtain ⟨rfl, rfl⟩ := h
    simp [run, hp]
  | cons r rs ih =>
    obtain ⟨v, t⟩ := r
    obtain ⟨st₁, vs₁, rest, hp₁, hr, rfl⟩ := run_cons_ok h
    have := ih hr
    simp only [List.cons_append, run, hp₁, this, List.append_assoc]

theorem run_split {c : Config} {st : State} {rs : List (Int × Int)} {value now : Int} {st'' : State} {sent}
    (h : run c st (rs ++ [(value, now)]) = .ok (st'', sent)) :
    ∃ st' sent' vs, run c st rs = .ok (st', sent') ∧ process c st' value now = .ok (st'', vs) ∧
      sent = sent' ++ vs.map (fun v => (now, v)) := by
  induction rs generalizing st sent with
  | nil =>
    obtain ⟨st₁, vs, rest, hp, hr, rfl⟩ := run_cons_ok h
    simp only [run, Except.ok.injEq, Prod.mk.injEq] at hr
    obtain ⟨rfl, rfl⟩ := hr
    exact ⟨st, [], vs, rfl, hp, by simp⟩
  | cons r rs ih =>
    obtain ⟨v, t⟩ := r
    obtain ⟨st₁, vs₁, rest, hp₁, hr, rfl⟩ := run_cons_ok h
    obtain ⟨st', sent', vs, h1, h2, rfl⟩ := ih hr
    exact ⟨st', vs₁.map (fun v => (t, v)) ++ sent', vs, by simp [run, hp₁, h1], h2, by simp⟩

theorem run_period {c : Config} {st st' : State} {rs sent} (h : run c st rs = .ok (st', sent)) :
    st'.period.interval = st.period.interval ∧
    (0 ≤ st.period.interval → st.period.lastReset ≤ st'.period.lastReset ∧
      ∀ p ∈ sent, st.period.lastReset + st.period.interval < p.1 ∧ p.1 ≤ st'.period.lastReset) := by
  induction rs generalizing st st' sent with
  | nil =>
    simp only [run, Except.ok.injEq, Prod.mk.injEq] at h
    obtain ⟨rfl, rfl⟩ := h
    exact ⟨rfl, fun _ => ⟨by omega, by simp⟩⟩
  | cons r rs ih =>
    obtain ⟨value, now⟩ := r
    obtain ⟨st₁, vs, rest, hp, hr, rfl⟩ := run_cons_ok h
    obtain ⟨i1, i2⟩ := ih hr
    rcases process_ok hp with ⟨_, rfl, rfl⟩ | ⟨hn, hper, hvs⟩
    · exact ⟨i1, by simpa using i2⟩
    · refine ⟨by rw [i1, hper], ?_⟩
      intro h0
      have := i2 (by rw [hper]; exact h0)
      rw [hper] at this
      simp only at this
      refine ⟨by omega, ?_⟩
      intro p hp'
      rw [List.mem_append] at hp'
      rcases hp' with hp' | hp'
      · obtain ⟨v, _, rfl⟩ := List.mem_map.1 hp'
        exact ⟨hn, this.1⟩
      · have := this.2 p hp'
        omega

/-- The readings regarded, and the calibration. -/
theorem run_cal {c : Config} (hc : c.calibrate = true) (hw : 1 ≤ c.window) {st st' : State} {rs sent} {vs : List Int}
    (hi : CalInv st vs) (h : run c st rs = .ok (st', sent)) :
    CalInv st' (vs ++ regarded st.period.interval st.period.lastReset rs) := by
  induction rs generalizing st st' sent vs with
  | nil =>
    simp only [run, Except.ok.injEq, Prod.mk.injEq] at h
    obtain ⟨rfl, rfl⟩ := h
    simpa [regarded] using hi
  | cons r rs ih =>
    obtain ⟨value, now⟩ := r
    obtain ⟨st₁, ws, rest, hp, hr, rfl⟩ := run_cons_ok h
    by_cases hn : st.period.lastReset + st.period.interval < now
    · obtain ⟨lo, hi', st₂, _, hinv, _, _, _, hper, heq⟩ := process_cal' hc hw hn hi
      rw [heq] at hp
      have key : CalInv st₁ (vs ++ [value]) ∧ st₁.period = { st.period with lastReset := now } := by
        split at hp
        · simp only [Except.ok.injEq, Prod.mk.injEq] at hp
          obtain ⟨rfl, rfl⟩ := hp
          exact ⟨hinv, hper⟩
        · obtain ⟨_, e1, e2, e3, _⟩ := send_ok hp
          exact ⟨⟨by rw [e2]; exact hinv.cal, by rw [e2, e3]; exact hinv.fac⟩, by rw [e1, hper]⟩
      have := ih key.1 hr
      rw [key.2] at this
      simp only [regarded, if_pos hn]
      simpa using this
    · rw [process_neg hn] at hp
      simp only [Except.ok.injEq, Prod.mk.injEq] at hp
      obtain ⟨rfl, rfl⟩ := hp
      have := ih hi hr
      simp only [regarded, if_neg hn]
      exact this

/-- With a valid configuration nothing is raised. -/
theorem run_valid {c : Config} (hv : c.Valid) (rs) {st : State} {vs : List Int} (hi : CalInv st vs) :
    ∃ r, run c st rs = .ok r := by
  induction rs generalizing st vs with
  | nil => exact ⟨_, rfl⟩
  | cons r rs ih =>
    obtain ⟨value, now⟩ := r
    have sendok : ∀ st₁ x, ∃ st₂ ws, send c st₁ x = .ok (st₂, ws) := by
      intro st₁ x
      obtain ⟨v, hv⟩ := output_valid hv x
      unfold send; rw [hv]; simp only
      split
      · exact ⟨_, _, rfl⟩
      · exact ⟨_, _, rfl⟩
    have key : ∃ st₁ ws vs', process c st value now = .ok (st₁, ws) ∧ CalInv st₁ vs' := by
      by_cases hn : st.period.lastReset + st.period.interval < now
      · cases hc : c.calibrate with
        | false =>
          rw [process_plain hc hn]
          obtain ⟨st₂, ws, hs⟩ := sendok { st with period := { st.period with lastReset := now } } value
          obtain ⟨_, _, e2, e3, _⟩ := send_ok hs
          exact ⟨st₂, ws, vs, hs, ⟨by rw [e2]; exact hi.cal, by rw [e2, e3]; exact hi.fac⟩⟩
        | true =>
          obtain ⟨lo, hi', st₂, _, hinv, _, _, _, _, heq⟩ := process_cal' hc hv.window hn hi
          rw [heq]
          split
          · exact ⟨_, _, _, rfl, hinv⟩
          · obtain ⟨st₃, ws, hs⟩ := sendok st₂ (calibrated lo hi' value)
            obtain ⟨_, _, e2, e3, _⟩ := send_ok hs
            exact ⟨st₃, ws, _, hs, ⟨by rw [e2]; exact hinv.cal, by rw [e2, e3]; exact hinv.fac⟩⟩
      · rw [process_neg hn]; exact ⟨_, _, _, rfl, hi⟩
    obtain ⟨st₁, ws, vs', hp, hi'⟩ := key
    obtain ⟨⟨st₂, rest⟩, hr⟩ := ih hi'
    exact ⟨(st₂, ws.map (fun v => (now, v)) ++ rest), by simp [run, hp, hr]⟩

theorem initial_ok {c : Config} (hv : c.Valid) : initial c = .ok { period := ⟨pyInt (1000 / c.fps), 0⟩ } := by
  unfold initial
  have := hv.max
  have := hv.steps
  have := hv.fps
  rw [if_neg]
  rintro (h | h | h)
  · omega
  · grind
  · omega

theorem interval_nonneg {c : Config} (hv : c.Valid) : 0 ≤ pyInt (1000 / c.fps) :=
  pyInt_nonneg (rat_div_nonneg hv.fps (by decide))

theorem interval_lt {c : Config} (hv : c.Valid) {d : Int} (h : pyInt (1000 / c.fps) < d) : 1000 / c.fps < (d : Rat) := by
  rw [pyInt_of_nonneg (rat_div_nonneg hv.fps (by decide))] at h
  exact Rat.floor_lt_iff.1 h

end PySwitch.Analog
