import Verif.Lemmas.Analog
/-
C37, C38, C65, C66: analog inputs.
-/
namespace PySwitch.Props
open PySwitch.Analog

/-- Example: an NRPN parameter (SysEx), and a self calibrating one. -/
def exAnalog : Analog.Config := { sysex := true }
def exAnalogCal : Analog.Config := { sysex := true, calibrate := true }

example : exAnalog.Valid := ⟨by decide, by decide, by decide, by decide +kernel⟩
example : exAnalogCal.Valid := ⟨by decide, by decide, by decide, by decide +kernel⟩

/-! ### C37 -/

/-- C37. All values sent are within 0 and the maximum value, for every sequence of readings at any times. -/
theorem C37_range (c : Analog.Config) (hv : c.Valid) (ht : c.transfer = none) (st₀ st : Analog.State)
    (rs sent : List (Int × Int)) (h : run c st₀ rs = .ok (st, sent)) :
    ∀ p ∈ sent, 0 ≤ p.2 ∧ p.2 ≤ c.max := by
  induction rs generalizing st₀ st sent with
  | nil =>
    simp only [run, Except.ok.injEq, Prod.mk.injEq] at h
    obtain ⟨rfl, rfl⟩ := h
    simp
  | cons r rs ih =>
    obtain ⟨value, now⟩ := r
    obtain ⟨st₁, vs, rest, hp, hr, rfl⟩ := run_cons_ok h
    intro p hp'
    rw [List.mem_append] at hp'
    rcases hp' with hp' | hp'
    · obtain ⟨v, hvm, rfl⟩ := List.mem_map.1 hp'
      rcases process_ok hp with ⟨_, rfl, rfl⟩ | ⟨_, _, ⟨rfl, _⟩ | ⟨rfl, _, x, hx⟩⟩
      · simp at hvm
      · simp at hvm
      · rw [List.mem_singleton] at hvm
        subst hvm
        exact output_range hv ht hx
    · exact ih _ _ _ hr p hp'

/-- C37. The maximum is 16383 for SysEx (NRPN) parameters and 127 otherwise, if it is not set. -/
theorem C37_max (c : Analog.Config) :
    (∀ m, c.maxValue = some m → c.max = m) ∧
    (c.maxValue = none → c.max = if c.sysex then 16383 else 127) := by
  constructor
  · intro m h; simp [Config.max, h]
  · intro h; simp [Config.max, h]

/-- C37. Of two values sent one after the other, the second differs from the first, and it is sent more than
`1000 / fps` milliseconds later. -/
theorem C37_changes (c : Analog.Config) (hv : c.Valid) (st₀ st : Analog.State) (h₀ : initial c = .ok st₀)
    (rs sent : List (Int × Int)) (h : run c st₀ rs = .ok (st, sent)) (i : Nat) (a b : Int × Int)
    (ha : sent[i]? = some a) (hb : sent[i + 1]? = some b) :
    a.2 ≠ b.2 ∧ 1000 / c.fps < ((b.1 - a.1 : Int) : Rat) := by
  rw [initial_ok hv] at h₀
  simp only [Except.ok.injEq] at h₀
  have hint : st₀.period.interval = pyInt (1000 / c.fps) := by rw [← h₀]
  have hnn := interval_nonneg hv
  suffices hs : a.2 ≠ b.2 ∧ pyInt (1000 / c.fps) < b.1 - a.1 from ⟨hs.1, interval_lt hv hs.2⟩
  clear h₀
  -- strengthen: what is known about the last value sent before
  induction rs generalizing st₀ st sent i with
  | nil =>
    simp only [run, Except.ok.injEq, Prod.mk.injEq] at h
    obtain ⟨rfl, rfl⟩ := h
    simp at ha
  | cons r rs ih =>
    obtain ⟨value, now⟩ := r
    obtain ⟨st₁, vs, rest, hp, hr, rfl⟩ := run_cons_ok h
    rcases process_ok hp with ⟨_, rfl, rfl⟩ | ⟨_, hper, hcase⟩
    · exact ih _ _ _ hr i (by simpa using ha) (by simpa using hb) hint
    · have hint₁ : st₁.period.interval = pyInt (1000 / c.fps) := by rw [hper]; exact hint
      rcases hcase with ⟨rfl, _⟩ | ⟨rfl, _, _⟩
      · exact ih _ _ _ hr i (by simpa using ha) (by simpa using hb) hint₁
      · cases i with
        | succ i => exact ih _ _ _ hr i (by simpa using ha) (by simpa using hb) hint₁
        | zero =>
          simp only [List.map_cons, List.map_nil, List.cons_append, List.nil_append, List.getElem?_cons_zero,
            Option.some.injEq, Nat.zero_add, List.getElem?_cons_succ] at ha hb
          subst ha
          -- the first value of the rest differs from the last value of `st₁`
          have hfirst : ∀ (rs rest : List (Int × Int)) (s s' : Analog.State), run c s rs = .ok (s', rest) →
              s.period.interval = pyInt (1000 / c.fps) → rest[0]? = some b →
              s.last ≠ b.2 ∧ pyInt (1000 / c.fps) < b.1 - s.period.lastReset := by
            intro rs
            induction rs with
            | nil =>
              intro rest s s' hr _ h0
              simp only [run, Except.ok.injEq, Prod.mk.injEq] at hr
              obtain ⟨rfl, rfl⟩ := hr
              simp at h0
            | cons r rs ih' =>
              intro rest s s' hr hi h0
              obtain ⟨value', now'⟩ := r
              obtain ⟨s₁, vs', rest', hp', hr', rfl⟩ := run_cons_ok hr
              rcases process_ok hp' with ⟨_, rfl, rfl⟩ | ⟨hn, hper', hcase'⟩
              · exact ih' _ _ _ hr' hi (by simpa using h0)
              · rcases hcase' with ⟨rfl, hl⟩ | ⟨rfl, hl, _⟩
                · have := ih' _ _ _ hr' (by rw [hper']; exact hi) (by simpa using h0)
                  rw [hl, hper'] at this
                  simp only at this
                  refine ⟨this.1, ?_⟩
                  omega
                · simp only [List.map_cons, List.map_nil, List.cons_append, List.nil_append,
                    List.getElem?_cons_zero, Option.some.injEq] at h0
                  subst h0
                  exact ⟨fun h => hl h.symm, by simp only; omega⟩
          have := hfirst rs rest st₁ st hr hint₁ (by simpa using hb)
          rw [hper] at this
          exact this

/-- C37. A reading which is regarded is effective: afterwards, the last value sent is the output for this reading. -/
theorem C37_current (c : Analog.Config) (hv : c.Valid) (ht : c.transfer = none) (hc : c.calibrate = false)
    (st₀ st st' : Analog.State) (h₀ : initial c = .ok st₀) (rs sent sent' : List (Int × Int))
    (h : run c st₀ rs = .ok (st, sent)) (value now : Int) (h' : run c st₀ (rs ++ [(value, now)]) = .ok (st', sent'))
    (hr : value ∈ (regarded (pyInt (1000 / c.fps)) st.period.lastReset [(value, now)])) :
    ∃ v, output c value = .ok v ∧ current sent' = some v := by
  rw [initial_ok hv] at h₀
  simp only [Except.ok.injEq] at h₀
  obtain ⟨st₁, sent₁, vs, hr₁, hp, hs⟩ := run_split h'
  rw [h] at hr₁
  simp only [Except.ok.injEq, Prod.mk.injEq] at hr₁
  obtain ⟨rfl, rfl⟩ := hr₁
  have hint : st.period.interval = pyInt (1000 / c.fps) := by rw [(run_period h).1, ← h₀]
  have hn : st.period.lastReset + st.period.interval < now := by
    rw [hint]
    simp only [regarded] at hr
    split at hr
    · assumption
    · simp at hr
  rw [process_plain hc hn] at hp
  obtain ⟨ho, _⟩ := send_ok hp
  refine ⟨_, ho, ?_⟩
  have hl := run_last h'
  rw [← h₀] at hl
  have hrange := output_range hv ht ho
  cases hcur : current sent' with
  | none => rw [hcur] at hl; simp only [Option.getD_none] at hl; omega
  | some v => rw [hcur] at hl; simp only [Option.getD_some] at hl; rw [hl]

/-- A configuration in numbers: 24 frames per second are 41 milliseconds. -/
example : (run exAnalog { period := ⟨41, 0⟩ } [(0, 50), (70, 60), (40000, 92), (40000, 150), (65535, 200)]).map Prod.snd =
    .ok [(50, 0), (92, 9984), (200, 16383)] := by decide +kernel

/-! ### C38 -/

/-- C38. A higher input never yields a lower output. -/
theorem C38_monotone (c : Analog.Config) (hv : c.Valid) (ht : c.transfer = none) (a b va vb : Int) (ha : 0 ≤ a)
    (hab : a ≤ b) (h1 : output c a = .ok va) (h2 : output c b = .ok vb) : va ≤ vb := by
  have hs := stepWidth_pos hv.steps
  rw [output_eq ht (by omega)] at h1 h2
  simp only [Except.ok.injEq] at h1 h2
  have hm := clamp_mono (c := c) (scaled_mono hv.max hs ha hab)
  have hr := clamp_range hv.max (scaled c b)
  have hbelow : c.below b = true → c.below a = true := by
    unfold Config.below
    cases c.minRaw with
    | none => simp
    | some m => simp only [decide_eq_true_eq]; omega
  generalize clamp c (scaled c a) = ka at *
  generalize clamp c (scaled c b) = kb at *
  split at h1
  · split at h2 <;> omega
  · rename_i hna
    rw [if_neg (fun h => hna (hbelow h))] at h2
    omega

/-- C38. The lowest input gives zero. -/
theorem C38_lowest (c : Analog.Config) (hv : c.Valid) (ht : c.transfer = none) : output c 0 = .ok 0 := by
  have hs := stepWidth_pos hv.steps
  rw [output_eq ht (by omega), scaled_zero]
  have := hv.max
  congr 1
  have hz : clamp c 0 = 0 := by unfold clamp; simp only; split <;> split <;> omega
  rw [hz]
  split <;> rfl

/-- C38. Everything below the threshold gives zero, too. -/
theorem C38_threshold (c : Analog.Config) (ht : c.transfer = none) (m v : Int) (hm : c.minRaw = some m) (hv : v < m) :
    output c v = .ok 0 := by
  simp [output, ht, Config.below, hm, hv]

/-- C38. Auto-calibration: consider the smallest and the largest reading regarded so far. If they are far enough apart,
a reading which is the largest one so far sets the maximum value and one which is the smallest sets zero. (The number
of steps has to be such that the step width divides the range, as for powers of two; the threshold for zero must not
be above the range.) -/
theorem C38_calibrated_partial (c : Analog.Config) (hv : c.Valid) (ht : c.transfer = none) (hc : c.calibrate = true)
    (hd : c.stepWidth ∣ 65536) (hm : ∀ m, c.minRaw = some m → m ≤ 65536)
    (st₀ st : Analog.State) (h₀ : initial c = .ok st₀) (rs sent : List (Int × Int)) (value now lo hi : Int)
    (h : run c st₀ (rs ++ [(value, now)]) = .ok (st, sent))
    (hreg : regarded (pyInt (1000 / c.fps)) 0 (rs ++ [(value, now)]) =
      regarded (pyInt (1000 / c.fps)) 0 rs ++ [value])
    (hb : bounds (regarded (pyInt (1000 / c.fps)) 0 (rs ++ [(value, now)])) = some (lo, hi))
    (hw : c.window ≤ hi - lo) :
    (value = hi → current sent = some c.max) ∧ (value = lo → current sent = some 0) := by
  rw [initial_ok hv] at h₀
  simp only [Except.ok.injEq] at h₀
  obtain ⟨st₁, sent₁, vs, hr, hp, rfl⟩ := run_split h
  have hinit : CalInv st₀ [] := by rw [← h₀]; exact ⟨rfl, by simp⟩
  have hcal := run_cal hc hv.window hinit hr
  have hint : st₁.period.interval = pyInt (1000 / c.fps) := by rw [(run_period hr).1, ← h₀]
  have h0i : st₀.period.interval = pyInt (1000 / c.fps) := by rw [← h₀]
  have h0r : st₀.period.lastReset = 0 := by rw [← h₀]
  rw [h0i, h0r, List.nil_append] at hcal
  -- the reading is regarded
  have hlast : ∀ (rs : List (Int × Int)) (s s' : Analog.State) (sent : List (Int × Int)),
      run c s rs = .ok (s', sent) →
      regarded s.period.interval s.period.lastReset (rs ++ [(value, now)]) =
        regarded s.period.interval s.period.lastReset rs ++
          regarded s.period.interval s'.period.lastReset [(value, now)] := by
    intro rs
    induction rs with
    | nil =>
      intro s s' sent hr
      simp only [run, Except.ok.injEq, Prod.mk.injEq] at hr
      obtain ⟨rfl, rfl⟩ := hr
      simp [regarded]
    | cons r rs ih =>
      intro s s' sent hr
      obtain ⟨v, t⟩ := r
      obtain ⟨s₁, ws, rest, hp, hr', rfl⟩ := run_cons_ok hr
      have := ih s₁ s' rest hr'
      rcases process_ok hp with ⟨hn, rfl, _⟩ | ⟨hn, hper, _⟩
      · simp only [List.cons_append, regarded, if_neg hn]
        simpa [regarded] using this
      · rw [hper] at this
        simp only [List.cons_append, regarded, if_pos hn]
        simpa [regarded] using this
  have hl := hlast rs st₀ st₁ sent₁ hr
  rw [h0i, h0r, hreg] at hl
  have hn : st₁.period.lastReset + st₁.period.interval < now := by
    rw [hint]
    have := List.append_cancel_left hl
    simp only [regarded] at this
    split at this
    · assumption
    · simp at this
  obtain ⟨lo', hi', st₂, hb', _, hle1, hle2, _, _, heq⟩ := process_cal' hc hv.window hn hcal
  rw [hreg] at hb
  rw [hb'] at hb
  simp only [Option.some.injEq, Prod.mk.injEq] at hb
  obtain ⟨rfl, rfl⟩ := hb
  rw [heq, if_neg (by omega)] at hp
  obtain ⟨ho, _⟩ := send_ok hp
  have hfin := run_last h
  rw [← h₀] at hfin
  simp only at hfin
  have hcur : current (sent₁ ++ vs.map (fun v => (now, v))) = some st.last := by
    have hrange := output_range hv ht ho
    cases hcur : current (sent₁ ++ vs.map (fun v => (now, v))) with
    | none => rw [hcur] at hfin; simp only [Option.getD_none] at hfin; omega
    | some v => rw [hcur] at hfin; simp only [Option.getD_some] at hfin; rw [hfin]
  rw [hcur]
  have hwin := hv.window
  have hs := stepWidth_pos hv.steps
  constructor
  · rintro rfl
    rw [calibrated_hi (by omega), output_eq ht (by omega), scaled_top hv.max hs hd] at ho
    simp only [Except.ok.injEq] at ho
    have hnb : c.below 65536 = false := by
      unfold Config.below
      cases hmr : c.minRaw with
      | none => rfl
      | some m => have := hm m hmr; simp only [decide_eq_false_iff_not]; omega
    rw [hnb, if_neg (by simp)] at ho
    rw [← ho]
    have := hv.max
    have : clamp c (c.max + 1) = c.max := by
      unfold clamp; simp only; repeat' split
      all_goals omega
    rw [this]
  · rintro rfl
    rw [calibrated_lo, C38_lowest c hv ht] at ho
    simp only [Except.ok.injEq] at ho
    rw [← ho]

example : exAnalogCal.stepWidth ∣ 65536 := by decide +kernel
example : (run exAnalogCal { period := ⟨41, 0⟩ } [(20000, 50), (30000, 92), (40000, 150), (19000, 200)]).map Prod.snd =
    .ok [(150, 16383), (200, 0)] := by decide +kernel

/-- C38. Calibrated readings of the same window are mapped monotonously. -/
theorem C38_calibrated_monotone (c : Analog.Config) (hv : c.Valid) (ht : c.transfer = none) (lo hi a b va vb : Int)
    (hlh : lo < hi) (ha : lo ≤ a) (hab : a ≤ b)
    (h1 : output c (pyInt (((a - lo : Int) : Rat) * (65536 / ((hi - lo : Int) : Rat)))) = .ok va)
    (h2 : output c (pyInt (((b - lo : Int) : Rat) * (65536 / ((hi - lo : Int) : Rat)))) = .ok vb) : va ≤ vb := by
  refine C38_monotone c hv ht (calibrated lo hi a) (calibrated lo hi b) va vb ?_ (calibrated_mono hlh ha hab) h1 h2
  have := calibrated_mono (b := a) hlh (Int.le_refl lo) ha
  rwa [calibrated_lo] at this

/-- C38 fails for other numbers of steps: with 100 steps, the largest reading sets 16375 instead of 16383. -/
theorem C38_max_missed : ∃ (c : Analog.Config) (st : Analog.State), c.Valid ∧ c.calibrate = true ∧ c.transfer = none ∧
    initial c = .ok st ∧ c.max = 16383 ∧
    (run c st [(0, 100), (65535, 200)]).map Prod.snd = .ok [(200, 16375)] :=
  ⟨{ sysex := true, calibrate := true, numSteps := 100 }, { period := ⟨41, 0⟩ },
    ⟨by decide, by decide, by decide, by decide +kernel⟩, rfl, rfl, by decide +kernel, by decide, by decide +kernel⟩

/-! ### C65 -/

/-- C65. The transfer function is applied to values between 0 and 65536; without calibration, for 16 bit readings,
these are the readings. -/
theorem C65_input_partial (c : Analog.Config) (hv : c.Valid) (f : Int → Int) (ht : c.transfer = some f)
    (st₀ st : Analog.State) (h₀ : initial c = .ok st₀) (rs sent : List (Int × Int)) (hraw : ∀ r ∈ rs, IsRaw r.1)
    (h : run c st₀ rs = .ok (st, sent)) :
    ∀ p ∈ sent, ∃ x, p.2 = f x ∧ 0 ≤ x ∧ (if c.calibrate then x ≤ 65536 else x ≤ 65535) := by
  rw [initial_ok hv] at h₀
  simp only [Except.ok.injEq] at h₀
  have hinit : CalInv st₀ [] := by rw [← h₀]; exact ⟨rfl, by simp⟩
  clear h₀
  have key : ∀ (rs sent : List (Int × Int)) (vs : List Int) (st₀ st : Analog.State), CalInv st₀ vs →
      (∀ r ∈ rs, IsRaw r.1) → run c st₀ rs = .ok (st, sent) →
      ∀ p ∈ sent, ∃ x, p.2 = f x ∧ 0 ≤ x ∧ (if c.calibrate then x ≤ 65536 else x ≤ 65535) := by
    intro rs
    induction rs with
    | nil =>
      intro sent vs st₀ st _ _ h
      simp only [run, Except.ok.injEq, Prod.mk.injEq] at h
      obtain ⟨rfl, rfl⟩ := h
      simp
    | cons r rs ih =>
      intro sent vs st₀ st hi hraw h
      obtain ⟨value, now⟩ := r
      obtain ⟨st₁, ws, rest, hp, hr, rfl⟩ := run_cons_ok h
      have hval := hraw (value, now) (by simp)
      have hraw' : ∀ r ∈ rs, IsRaw r.1 := fun r hr => hraw r (List.mem_cons_of_mem _ hr)
      -- what is sent here
      have hout : ∀ (s s' : Analog.State) (x : Int) (ws : List Int), send c s x = .ok (s', ws) → ∀ v ∈ ws, v = f x := by
        intro s s' x ws hs v hv'
        obtain ⟨h1, _, _, _, h2⟩ := send_ok hs
        simp only [output, ht, Except.ok.injEq] at h1
        rcases h2 with ⟨rfl, _⟩ | ⟨rfl, _⟩
        · simp at hv'
        · rw [List.mem_singleton] at hv'; rw [hv', h1]
      have hstep : (∃ vs', CalInv st₁ vs') ∧
          ∀ v ∈ ws, ∃ x, v = f x ∧ 0 ≤ x ∧ (if c.calibrate then x ≤ 65536 else x ≤ 65535) := by
        by_cases hn : st₀.period.lastReset + st₀.period.interval < now
        · cases hc : c.calibrate with
          | false =>
            rw [process_plain hc hn] at hp
            obtain ⟨_, _, e2, e3, _⟩ := send_ok hp
            refine ⟨⟨vs, ⟨by rw [e2]; exact hi.cal, by rw [e2, e3]; exact hi.fac⟩⟩, ?_⟩
            intro v hv'
            exact ⟨value, hout _ _ _ _ hp v hv', hval.1, by simpa using hval.2⟩
          | true =>
            obtain ⟨lo, hi', st₂, _, hinv, hle1, hle2, _, _, heq⟩ := process_cal' hc hv.window hn hi
            rw [heq] at hp
            split at hp
            · simp only [Except.ok.injEq, Prod.mk.injEq] at hp
              obtain ⟨rfl, rfl⟩ := hp
              exact ⟨⟨_, hinv⟩, by simp⟩
            · rename_i hw
              have hwin := hv.window
              have hlt : lo < hi' := by omega
              obtain ⟨_, _, e2, e3, _⟩ := send_ok hp
              refine ⟨⟨_, ⟨by rw [e2]; exact hinv.cal, by rw [e2, e3]; exact hinv.fac⟩⟩, ?_⟩
              intro v hv'
              refine ⟨_, hout _ _ _ _ hp v hv', ?_, ?_⟩
              · have := calibrated_mono (b := value) hlt (Int.le_refl lo) hle1
                rwa [calibrated_lo] at this
              · have := calibrated_mono hlt hle1 hle2
                rw [calibrated_hi hlt] at this
                simpa using this
        · rw [process_neg hn] at hp
          simp only [Except.ok.injEq, Prod.mk.injEq] at hp
          obtain ⟨rfl, rfl⟩ := hp
          exact ⟨⟨_, hi⟩, by simp⟩
      obtain ⟨⟨vs', hi'⟩, hws⟩ := hstep
      intro p hp'
      rw [List.mem_append] at hp'
      rcases hp' with hp' | hp'
      · obtain ⟨v, hvm, rfl⟩ := List.mem_map.1 hp'
        exact hws v hvm
      · exact ih rest vs' st₁ st hi' hraw' hr p hp'
  exact key rs sent [] st₀ st hinit hraw h

/-- C65 fails with auto-calibration: the transfer function is called with 65536, beyond the documented range. -/
theorem C65_out_of_range : ∃ (c : Analog.Config) (st : Analog.State), c.Valid ∧ c.transfer = some id ∧
    initial c = .ok st ∧ (run c st [(0, 100), (65535, 200)]).map Prod.snd = .ok [(200, 65536)] :=
  ⟨{ sysex := true, calibrate := true, transfer := some id }, { period := ⟨41, 0⟩ },
    ⟨by decide, by decide, by decide, by decide +kernel⟩, rfl, by decide +kernel, by decide +kernel⟩

/-! ### C66 -/

/-- C66. With a valid configuration, no sequence of readings raises an exception. -/
theorem C66_no_exception (c : Analog.Config) (hv : c.Valid) (rs : List (Int × Int)) :
    ∃ st₀ r, initial c = .ok st₀ ∧ run c st₀ rs = .ok r := by
  have hinit : CalInv { period := ⟨pyInt (1000 / c.fps), 0⟩ } [] := ⟨rfl, by simp⟩
  obtain ⟨r, hr⟩ := run_valid hv rs hinit
  exact ⟨_, r, initial_ok hv, hr⟩

/-- C66. The condition on the calibration window is needed: with `cal_min_window = 0`, the first reading raises an
exception; so does the one on the number of steps. -/
theorem C66_window_zero :
    (∃ st, initial { calibrate := true, calMinWindow := 0 } = .ok st ∧
      run { calibrate := true, calMinWindow := 0 } st [(100, 50)] = .error .attributeError) ∧
    (∃ st, initial { numSteps := 65537 } = .ok st ∧ run { numSteps := 65537 } st [(2000, 50)] = .error .zeroDivision) := by
  refine ⟨⟨{ period := ⟨41, 0⟩ }, by decide +kernel, by decide +kernel⟩, ⟨{ period := ⟨41, 0⟩ }, by decide +kernel, by decide +kernel⟩⟩

end PySwitch.Props
