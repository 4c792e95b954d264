import Verif.Model.Tuner
import Verif.Spec.Tuner
import Verif.Lemmas.Num
namespace PySwitch.Tuner
open PySwitch PySwitch.Layout

/-! ### Numbers -/

theorem pyInt_le_iff_floor (x : Rat) : (0 ≤ x → pyInt x = x.floor) ∧ (x < 0 → pyInt x = -((-x).floor)) := by
  constructor
  · intro h; unfold pyInt; rw [if_pos h]
  · intro h; unfold pyInt; rw [if_neg (by grind)]

theorem floor_mono {x y : Rat} (h : x ≤ y) : x.floor ≤ y.floor := Rat.floor_monotone h

theorem pyInt_monotone {x y : Rat} (h : x ≤ y) : pyInt x ≤ pyInt y := by
  by_cases hx : 0 ≤ x
  · exact pyInt_mono hx h
  · have hx' : x < 0 := by grind
    rw [(pyInt_le_iff_floor x).2 hx']
    by_cases hy : 0 ≤ y
    · have h1 := pyInt_nonneg hy
      have h2 : ((0 : Int) : Rat).floor ≤ (-x).floor := Rat.floor_monotone (by grind)
      rw [Rat.floor_intCast] at h2
      omega
    · have hy' : y < 0 := by grind
      rw [(pyInt_le_iff_floor y).2 hy']
      have : (-y).floor ≤ (-x).floor := Rat.floor_monotone (by grind)
      omega

theorem pyInt_le_of_le {x : Rat} {n : Int} (h : x ≤ (n : Rat)) : pyInt x ≤ n := by
  have := pyInt_monotone h
  rwa [pyInt_intCast] at this

theorem le_pyInt_of_le {x : Rat} {n : Int} (h : (n : Rat) ≤ x) : n ≤ pyInt x := by
  have := pyInt_monotone h
  rwa [pyInt_intCast] at this

/-- Truncation moves a number by less than one. -/
theorem pyInt_near (x : Rat) : (pyInt x : Rat) < x + 1 ∧ x - 1 < (pyInt x : Rat) := by
  by_cases hx : 0 ≤ x
  · rw [(pyInt_le_iff_floor x).1 hx]
    have h1 := Rat.floor_le (a := x)
    have h2 := Rat.lt_floor (x := x)
    grind
  · have hx' : x < 0 := by grind
    rw [(pyInt_le_iff_floor x).2 hx']
    have h1 := Rat.floor_le (a := -x)
    have h2 := Rat.lt_floor (x := -x)
    have e : ((-((-x).floor) : Int) : Rat) = -(((-x).floor : Int) : Rat) := by push_cast; rfl
    rw [e]
    grind

theorem mul_div_le {a s n : Rat} (ha : 0 ≤ a) (hn : 0 < n) (hs : s ≤ n) : a * s / n ≤ a := by
  have h1 : a * s ≤ a * n := Rat.mul_le_mul_of_nonneg_left hs ha
  have h2 := rat_div_le_div hn h1
  have h3 : a * n / n = a := by rw [Rat.div_def, Rat.mul_assoc, Rat.mul_inv_cancel _ (by grind), Rat.mul_one]
  rwa [h3] at h2

theorem mul_div_mono {a s t n : Rat} (ha : 0 ≤ a) (hn : 0 < n) (hs : s ≤ t) : a * s / n ≤ a * t / n :=
  rat_div_le_div hn (Rat.mul_le_mul_of_nonneg_left hs ha)

/-! ### Tuner display -/

theorem scaled_range (c : DisplayConfig) (v : Int) (h0 : 0 ≤ v) (h1 : v ≤ 16383) :
    -1 ≤ c.scaled v ∧ c.scaled v ≤ 16383 ∧ (c.zoom = 1 → 0 ≤ c.scaled v) := by
  unfold DisplayConfig.scaled
  by_cases hz : c.zoom = 1
  · simp [hz]; omega
  · simp only [ne_eq, hz, not_false_eq_true, if_true]
    generalize pyInt _ = z
    exact ⟨by omega, by omega, fun h => absurd h (by simp)⟩

/-! ### Strobe -/

theorem loops_spec (speed : Int) (hs : 0 < speed) : ∀ (n : Nat) (pos : Int), pos.natAbs < n →
    ∃ r, loops speed n pos = some r ∧ -speed ≤ r ∧ r ≤ speed ∧ r % speed = pos % speed := by
  intro n
  induction n with
  | zero => intro pos h; omega
  | succ n ih =>
    intro pos h
    unfold loops
    by_cases h1 : pos > speed
    · rw [if_pos h1]
      obtain ⟨r, e, a, b, m⟩ := ih (pos - speed) (by omega)
      exact ⟨r, e, a, b, by rw [m, Int.sub_emod_right]⟩
    · rw [if_neg h1]
      by_cases h2 : pos < -speed
      · rw [if_pos h2]
        obtain ⟨r, e, a, b, m⟩ := ih (pos + speed) (by omega)
        exact ⟨r, e, a, b, by rw [m, Int.add_emod_right]⟩
      · rw [if_neg h2]
        exact ⟨pos, rfl, by omega, by omega, rfl⟩

theorem normalize_spec (speed : Int) (hs : 0 < speed) (pos : Int) :
    -speed ≤ normalize speed pos ∧ normalize speed pos ≤ speed ∧ normalize speed pos % speed = pos % speed := by
  obtain ⟨r, e, a, b, m⟩ := loops_spec speed hs (pos.natAbs + 1) pos (by omega)
  unfold normalize
  rw [e]
  exact ⟨a, b, m⟩

theorem normalize_id (speed pos : Int) (h0 : -speed ≤ pos) (h1 : pos ≤ speed) : normalize speed pos = pos := by
  unfold normalize loops
  rw [if_neg (by omega), if_neg (by omega)]
  rfl

theorem phase_range (c : StrobeConfig) (hs : 0 < c.speed) (pos : Int) : 0 ≤ c.phase pos ∧ c.phase pos < 1 := by
  have hr : (0 : Rat) < (c.speed : Rat) := by exact_mod_cast hs
  have h0 := Int.emod_nonneg pos (show c.speed ≠ 0 by omega)
  have h1 := Int.emod_lt_of_pos pos hs
  unfold StrobeConfig.phase
  refine ⟨rat_div_nonneg hr (by exact_mod_cast h0), ?_⟩
  rw [Rat.div_lt_iff hr, Rat.one_mul]
  exact_mod_cast h1

theorem place_bounds (c : StrobeConfig) (hs : 0 < c.speed) (pos : Int) (k : Nat) (hk : k < c.count) :
    0 ≤ c.phase pos + (k : Rat) / (c.count : Rat) ∧ c.phase pos + (k : Rat) / (c.count : Rat) < 2 := by
  have hn : (0 : Rat) < (c.count : Rat) := by exact_mod_cast (show 0 < c.count by omega)
  obtain ⟨h0, h1⟩ := phase_range c hs pos
  have h2 : 0 ≤ (k : Rat) / (c.count : Rat) := rat_div_nonneg hn (by exact_mod_cast Nat.zero_le k)
  have h3 : (k : Rat) / (c.count : Rat) < 1 := by
    rw [Rat.div_lt_iff hn, Rat.one_mul]
    exact_mod_cast hk
  constructor <;> grind

theorem place_range (c : StrobeConfig) (hs : 0 < c.speed) (pos : Int) (k : Nat) (hk : k < c.count) :
    0 ≤ c.place pos k ∧ c.place pos k ≤ 1 := by
  obtain ⟨h0, h1⟩ := place_bounds c hs pos k hk
  unfold StrobeConfig.place
  generalize c.phase pos + (k : Rat) / (c.count : Rat) = p at h0 h1
  simp only
  by_cases h : p > 1
  · rw [if_pos h]; constructor <;> grind
  · rw [if_neg h, if_neg (by grind)]; constructor <;> grind

theorem glow_range (p w : Rat) (hw : 0 < w) (h0 : 0 ≤ p) (h1 : p ≤ 1) : 0 ≤ glow p w ∧ glow p w ≤ 1 := by
  have hi : 0 < 1 / w := by
    rw [Rat.div_def, Rat.one_mul]; exact Rat.inv_pos.2 hw
  have hwi : w * (1 / w) = 1 := by
    rw [Rat.div_def, Rat.one_mul, Rat.mul_inv_cancel _ (by grind)]
  unfold glow
  by_cases ha : p ≤ w
  · rw [if_pos ha]
    have h2 : p * (1 / w) ≤ w * (1 / w) := Rat.mul_le_mul_of_nonneg_right ha (by grind)
    have h3 : 0 ≤ p * (1 / w) := Rat.mul_nonneg h0 (by grind)
    constructor <;> grind
  · rw [if_neg ha]
    by_cases hb : p ≥ 1 - w
    · rw [if_pos hb]
      have h2 : (p - 1 + w) * (1 / w) ≤ w * (1 / w) := Rat.mul_le_mul_of_nonneg_right (by grind) (by grind)
      have h3 : 0 ≤ (p - 1 + w) * (1 / w) := Rat.mul_nonneg (by grind) (by grind)
      constructor <;> grind
    · rw [if_neg hb]; constructor <;> grind

theorem steps_range {g : Rat} (h0 : 0 ≤ g) (h1 : g ≤ 1) :
    0 ≤ (pyInt (g * 16) : Rat) / 16 ∧ (pyInt (g * 16) : Rat) / 16 ≤ 1 := by
  have h16 : (0 : Rat) < 16 := by decide +kernel
  have a : 0 ≤ pyInt (g * 16) := pyInt_nonneg (by grind)
  have e16 : ((16 : Int) : Rat) = 16 := rfl
  have b : pyInt (g * 16) ≤ 16 := pyInt_le_of_le (by rw [e16]; grind)
  refine ⟨rat_div_nonneg h16 (by exact_mod_cast a), ?_⟩
  have : (pyInt (g * 16) : Rat) ≤ 16 := by rw [← e16]; exact_mod_cast b
  have := rat_div_le_div h16 this
  have e : (16 : Rat) / 16 = 1 := by decide +kernel
  rwa [e] at this

theorem brightness_range (c : StrobeConfig) (hs : 0 < c.speed) (hw : 0 < c.width) (hd : 0 ≤ c.dim) (pos : Int) (k : Nat)
    (hk : k < c.count) : 0 ≤ c.brightness pos k ∧ c.brightness pos k ≤ c.dim := by
  obtain ⟨p0, p1⟩ := place_range c hs pos k hk
  obtain ⟨g0, g1⟩ := glow_range _ _ hw p0 p1
  obtain ⟨s0, s1⟩ := steps_range g0 g1
  unfold StrobeConfig.brightness
  simp only
  generalize (pyInt (glow (c.place pos k) c.width * 16) : Rat) / 16 = b at s0 s1
  have hbb : 0 ≤ b * b := Rat.mul_nonneg s0 s0
  have hbb1 : b * b ≤ 1 := by
    have h := Rat.mul_le_mul_of_nonneg_left s1 s0
    rw [Rat.mul_one] at h
    grind
  refine ⟨Rat.mul_nonneg hbb hd, ?_⟩
  have := Rat.mul_le_mul_of_nonneg_right hbb1 hd
  rwa [Rat.one_mul] at this

/-- The facts kept by all events: the position is bounded. -/
theorem step_pos (c : StrobeConfig) (hs : 0 < c.speed) (st : StrobeState) (e : StrobeEvent)
    (h : -c.speed ≤ st.pos ∧ st.pos ≤ c.speed) : -c.speed ≤ (c.step st e).pos ∧ (c.step st e).pos ≤ c.speed := by
  cases e with
  | tuner on now =>
    simp only [StrobeConfig.step]
    by_cases hc : c.count ≤ 1
    · rw [if_pos hc]; exact h
    · rw [if_neg hc]; cases on <;> exact h
  | deviance v now =>
    simp only [StrobeConfig.step]
    by_cases hc : c.count ≤ 1
    · rw [if_pos hc]; exact h
    · rw [if_neg hc]
      simp only [StrobeConfig.update]
      cases he : st.enabled with
      | false => simpa [he] using h
      | true =>
        simp only [Bool.not_true, Bool.false_eq_true, if_false]
        cases hx : (st.period.exceeded now).1 with
        | false => simpa [hx] using h
        | true =>
          simp only [Bool.not_true, Bool.false_eq_true, if_false, StrobeConfig.draw]
          have := normalize_spec c.speed hs (st.pos - c.delta v * st.period.passed now)
          exact ⟨this.1, this.2.1⟩
  | others l => exact h

theorem run_pos (c : StrobeConfig) (hs : 0 < c.speed) : ∀ (es : List StrobeEvent) (st : StrobeState),
    -c.speed ≤ st.pos ∧ st.pos ≤ c.speed → -c.speed ≤ (c.run st es).pos ∧ (c.run st es).pos ≤ c.speed := by
  intro es
  induction es with
  | nil => intro st h; exact h
  | cons e es ih => intro st h; exact ih _ (step_pos c hs st e h)

theorem draw_agree (c : StrobeConfig) (st : StrobeState) (k : Nat) (hk : k < c.count) (h : st.leds k = st.cache k) :
    (c.draw st).leds k = c.brightness st.pos k ∧ (c.draw st).cache k = c.brightness st.pos k := by
  simp only [StrobeConfig.draw]
  by_cases hx : st.cache k ≠ c.brightness st.pos k
  · simp [hk, hx]
  · have : st.cache k = c.brightness st.pos k := by grind
    simp [h, this]

theorem step_agree (c : StrobeConfig) (st : StrobeState) (e : StrobeEvent) (he : ∀ l, e ≠ .others l) (k : Nat)
    (hk : k < c.count) (h : st.leds k = st.cache k) : (c.step st e).leds k = (c.step st e).cache k := by
  cases e with
  | tuner on now =>
    simp only [StrobeConfig.step]
    by_cases hc : c.count ≤ 1
    · rw [if_pos hc]; exact h
    · rw [if_neg hc]; cases on <;> exact h
  | deviance v now =>
    simp only [StrobeConfig.step]
    by_cases hc : c.count ≤ 1
    · rw [if_pos hc]; exact h
    · rw [if_neg hc]
      simp only [StrobeConfig.update]
      cases he : st.enabled with
      | false => simpa [he] using h
      | true =>
        simp only [Bool.not_true, Bool.false_eq_true, if_false]
        cases hx : (st.period.exceeded now).1 with
        | false => simpa [hx] using h
        | true =>
          simp only [Bool.not_true, Bool.false_eq_true, if_false]
          refine (draw_agree c _ k hk ?_).1.trans (draw_agree c _ k hk ?_).2.symm <;> exact h
  | others l => exact absurd rfl (he l)

theorem run_agree (c : StrobeConfig) (k : Nat) (hk : k < c.count) : ∀ (es : List StrobeEvent) (st : StrobeState),
    (∀ l, .others l ∉ es) → st.leds k = st.cache k → (c.run st es).leds k = (c.run st es).cache k := by
  intro es
  induction es with
  | nil => intro st _ h; exact h
  | cons e es ih =>
    intro st he h
    refine ih _ (fun l hm => he l (by simp [hm])) (step_agree c st e ?_ k hk h)
    intro l hl
    exact he l (by simp [hl])

/-! ### Override -/

/-- In tuner mode without processing of the switch's own actions, a switch without a pending hold only calls the override. -/
theorem process_override (c : Switch.Config) (sw : Switch.State) (s : Switch.Sample) (hh : sw.holdActive = false) :
    let r := Switch.process c sw { s with override := some (false, false) }
    r.1.holdActive = false ∧ r.1.pushedState = s.pushed ∧
    r.2 = if s.pushed then (if sw.pushedState then [] else [.overridePush])
      else if sw.pushedState then [.overrideRelease] else [] := by
  intro r
  cases hp : s.pushed <;> cases hq : sw.pushedState <;>
    simp [r, Switch.process, Switch.processPushed, hp, hq, hh]

/-- One call in tuner mode without pending hold. -/
theorem override_process (cs : List Switch.Config) (st : OverrideState) (hon : st.on = true) (k : Nat) (c : Switch.Config)
    (sw : Switch.State) (hc : cs[k]? = some c) (hsw : st.switches[k]? = some sw) (hh : sw.holdActive = false) (s : Switch.Sample) :
    overrideStep cs false st (.process k s) =
      ({ st with
          pushedBefore := if s.pushed then (if sw.pushedState then st.pushedBefore else true)
            else if sw.pushedState then false else st.pushedBefore,
          switches := st.switches.set k (Switch.process c sw { s with override := some (false, false) }).1 },
       if s.pushed then [] else if sw.pushedState then (if st.pushedBefore then [.leave] else []) else []) := by
  have ho : st.override false = some (false, false) := by
    unfold OverrideState.override
    rw [hon]; simp
  obtain ⟨_, _, h3⟩ := process_override c sw s hh
  simp only [overrideStep, hc, hsw, ho]
  rw [h3]
  cases s.pushed <;> cases sw.pushedState <;> cases st.pushedBefore <;> simp [applyOverride]

theorem override_process' (cs : List Switch.Config) (st : OverrideState) (hon : st.on = true) (k : Nat) (c : Switch.Config)
    (sw : Switch.State) (hc : cs[k]? = some c) (hsw : st.switches[k]? = some sw) (hh : sw.holdActive = false) (s : Switch.Sample) :
    ∃ sw', sw'.holdActive = false ∧ sw'.pushedState = s.pushed ∧ overrideStep cs false st (.process k s) =
      ({ st with
          pushedBefore := if s.pushed then (if sw.pushedState then st.pushedBefore else true)
            else if sw.pushedState then false else st.pushedBefore,
          switches := st.switches.set k sw' },
       if s.pushed then [] else if sw.pushedState then (if st.pushedBefore then [.leave] else []) else []) :=
  ⟨_, (process_override c sw s hh).1, (process_override c sw s hh).2.1, override_process cs st hon k c sw hc hsw hh s⟩

theorem override_step_quiet (cs : List Switch.Config) (st : OverrideState) (hon : st.on = true)
    (hq : ∀ sw ∈ st.switches, sw.holdActive = false) (e : OverrideEvent) (he : e.isProcess = true) :
    (overrideStep cs false st e).1.on = true ∧ (∀ sw ∈ (overrideStep cs false st e).1.switches, sw.holdActive = false) ∧
    ∀ eff ∈ (overrideStep cs false st e).2, eff = .leave := by
  cases e with
  | tuner v => simp [OverrideEvent.isProcess] at he
  | process k s =>
    cases hc : cs[k]? with
    | none => simp only [overrideStep, hc]; exact ⟨hon, hq, by simp⟩
    | some c =>
      cases hsw : st.switches[k]? with
      | none => simp only [overrideStep, hc, hsw]; exact ⟨hon, hq, by simp⟩
      | some sw =>
        have hh := hq sw (List.mem_of_getElem? hsw)
        rw [override_process cs st hon k c sw hc hsw hh s]
        refine ⟨hon, ?_, ?_⟩
        · intro x hx
          rcases List.mem_or_eq_of_mem_set hx with hx | rfl
          · exact hq x hx
          · exact (process_override c sw s hh).1
        · cases s.pushed <;> cases sw.pushedState <;> cases st.pushedBefore <;> simp

theorem applyOverride_own (k : Nat) (pb : Bool) (l : List Switch.Eff) (h : ∀ e ∈ l, e ≠ .overridePush ∧ e ≠ .overrideRelease) :
    (applyOverride k pb l).1 = pb ∧ (applyOverride k pb l).2 = l.map (.own k) := by
  induction l with
  | nil => simp [applyOverride]
  | cons e l ih =>
    have := ih (fun x hx => h x (by simp [hx]))
    have he := h e (by simp)
    cases e <;> simp_all [applyOverride]

/-- Calls of the override itself. -/
def isOverrideCall : Switch.Eff → Bool
  | .overridePush => true
  | .overrideRelease => true
  | _ => false

theorem applyOverride_filter (k : Nat) (pb : Bool) (l : List Switch.Eff) :
    (applyOverride k pb l).2.filter (· ≠ .leave) = (l.filter (fun e => !isOverrideCall e)).map (.own k) := by
  induction l generalizing pb with
  | nil => rfl
  | cons e l ih =>
    cases e with
    | push a => simpa [applyOverride, isOverrideCall] using ih pb
    | release a => simpa [applyOverride, isOverrideCall] using ih pb
    | overridePush => simpa [applyOverride, isOverrideCall] using ih true
    | overrideRelease => cases pb <;> simpa [applyOverride, isOverrideCall] using ih false

theorem fireHold_own (c : Switch.Config) (s : Switch.Sample) :
    ∀ e ∈ Switch.fireHold c s, isOverrideCall e = false := by
  intro e he
  simp only [Switch.fireHold, List.mem_flatMap, List.mem_cons, List.not_mem_nil, or_false] at he
  obtain ⟨a, _, rfl | rfl⟩ := he <;> rfl

theorem checkHold_own (c : Switch.Config) (st : Switch.State) (s : Switch.Sample) :
    ∀ e ∈ (Switch.checkHold c st s).2.2, isOverrideCall e = false := by
  intro e he
  simp only [Switch.checkHold] at he
  split at he
  · exact fireHold_own c s e he
  · simp at he

theorem releaseActions_own (c : Switch.Config) (st : Switch.State) (s : Switch.Sample) :
    ∀ e ∈ (Switch.releaseActions c st s).2, isOverrideCall e = false := by
  intro e he
  simp only [Switch.releaseActions, List.mem_flatMap] at he
  obtain ⟨a, _, he⟩ := he
  split at he <;> simp at he
  · rcases he with rfl | rfl <;> rfl
  · subst he; rfl

theorem release_own (c : Switch.Config) (st : Switch.State) (s : Switch.Sample) :
    ∀ e ∈ (Switch.release c st s).2, isOverrideCall e = false := by
  intro e he
  simp only [Switch.release] at he
  split at he
  · split at he
    · simp at he
    · split at he
      · exact checkHold_own _ _ _ e he
      · split at he
        · exact checkHold_own _ _ _ e he
        · rcases List.mem_append.1 he with he | he
          · exact checkHold_own _ _ _ e he
          · exact releaseActions_own _ _ _ e he
  · exact releaseActions_own _ _ _ e he

theorem pushActions_own (c : Switch.Config) (st : Switch.State) (s : Switch.Sample) :
    ∀ e ∈ (Switch.pushActions c st s).2, isOverrideCall e = false := by
  intro e he
  simp only [Switch.pushActions] at he
  split at he
  · simp at he
  · simp only [List.mem_map] at he
    obtain ⟨a, _, rfl⟩ := he
    rfl

/-- Without override, no override is called. -/
theorem process_own (c : Switch.Config) (sw : Switch.State) (s : Switch.Sample) (hs : s.override = none) :
    ∀ e ∈ (Switch.process c sw s).2, isOverrideCall e = false := by
  have hpp : ∀ st, ∀ e ∈ (Switch.processPushed c st s).2, isOverrideCall e = false := by
    intro st e he
    simp only [Switch.processPushed, hs] at he
    split at he
    · simp at he
    · exact pushActions_own _ _ _ e he
  intro e he
  simp only [Switch.process, hs] at he
  split at he
  · split at he
    · exact release_own _ _ _ e he
    · simp at he
  · split at he
    · split at he
      · exact checkHold_own _ _ _ e he
      · exact hpp _ e he
    · exact hpp _ e he

theorem process_no_override (c : Switch.Config) (sw : Switch.State) (s : Switch.Sample) (hs : s.override = none) :
    ∀ e ∈ (Switch.process c sw s).2, e ≠ .overridePush ∧ e ≠ .overrideRelease := by
  intro e he
  have := process_own c sw s hs e he
  constructor <;> (rintro rfl; simp [isOverrideCall] at this)

/-- An override returning true does not change what the switch does. -/
theorem process_overridden (c : Switch.Config) (sw : Switch.State) (s : Switch.Sample) (hs : s.override = none) (pb : Bool)
    (hpb : s.pushed = true ∨ pb = true) :
    (Switch.process c sw { s with override := some (true, pb) }).1 = (Switch.process c sw s).1 ∧
    (Switch.process c sw { s with override := some (true, pb) }).2.filter (fun e => !isOverrideCall e) = (Switch.process c sw s).2 := by
  have hown := process_own c sw s hs
  have hfil : (Switch.process c sw s).2.filter (fun e => !isOverrideCall e) = (Switch.process c sw s).2 :=
    List.filter_eq_self.2 (fun e he => by simp [hown e he])
  have hpp : ∀ st, (Switch.processPushed c st { s with override := some (true, pb) }).1 = (Switch.processPushed c st s).1 ∧
      (Switch.processPushed c st { s with override := some (true, pb) }).2.filter (fun e => !isOverrideCall e) =
        (Switch.processPushed c st s).2.filter (fun e => !isOverrideCall e) := by
    intro st
    simp only [Switch.processPushed, hs]
    by_cases hp : st.pushedState
    · simp [hp]
    · simp only [hp, if_false, Bool.false_eq_true, not_true]
      exact ⟨rfl, by simp [isOverrideCall]; rfl⟩
  rw [← hfil]
  clear hown hfil
  obtain ⟨p, n, en, ov⟩ := s
  simp only at hs hpb hpp
  subst hs
  cases p with
  | true =>
    simp only [Switch.process, not_true, if_false]
    by_cases hh : sw.holdActive
    · simp only [hh, if_true]
      have e : Switch.checkHold c sw ⟨true, n, en, some (true, pb)⟩ = Switch.checkHold c sw ⟨true, n, en, none⟩ := rfl
      rw [e]
      by_cases hx : (Switch.checkHold c sw ⟨true, n, en, none⟩).1
      · simp only [hx, if_true]; exact ⟨trivial, trivial⟩
      · simp only [hx, if_false, Bool.false_eq_true]; exact hpp _
    · simp only [hh, if_false, Bool.false_eq_true]; exact hpp _
  | false =>
    have hb : pb = true := by simpa using hpb
    subst hb
    simp only [Switch.process, not_false_eq_true, if_true, Bool.false_eq_true]
    by_cases hq : sw.pushedState
    · simp only [hq, if_true]
      exact ⟨rfl, by simp [isOverrideCall]; rfl⟩
    · simp [hq]

/-- Calls of the override can only happen with an override. -/
theorem applyOverride_no_leave (k : Nat) (l : List Switch.Eff) (h : .overridePush ∉ l) :
    (applyOverride k false l).1 = false ∧ .leave ∉ (applyOverride k false l).2 := by
  induction l with
  | nil => simp [applyOverride]
  | cons e l ih =>
    have := ih (fun hx => h (by simp [hx]))
    cases e <;> simp_all [applyOverride]

theorem override_step_no_press (cs : List Switch.Config) (process : Bool) (st : OverrideState) (hpb : st.pushedBefore = false)
    (e : OverrideEvent) (he : ¬ ∃ k s, e = .process k s ∧ s.pushed = true ∧ st.on = true) :
    (overrideStep cs process st e).1.pushedBefore = false ∧ .leave ∉ (overrideStep cs process st e).2 := by
  cases e with
  | tuner v =>
    simp only [overrideStep]
    split
    · exact ⟨hpb, by simp⟩
    · exact ⟨hpb, by simp⟩
  | process k s =>
    cases hc : cs[k]? with
    | none => simp only [overrideStep, hc]; exact ⟨hpb, by simp⟩
    | some c =>
      cases hsw : st.switches[k]? with
      | none => simp only [overrideStep, hc, hsw]; exact ⟨hpb, by simp⟩
      | some sw =>
        simp only [overrideStep, hc, hsw, hpb]
        apply applyOverride_no_leave
        by_cases hon : st.on
        · have hp : s.pushed = false := by
            cases hp : s.pushed with
            | false => rfl
            | true => exact absurd ⟨k, s, rfl, hp, hon⟩ he
          simp only [Switch.process, hp, Bool.false_eq_true, not_false_eq_true, if_true]
          split
          · intro hm
            split at hm
            · split at hm
              · simp only [List.mem_cons, reduceCtorEq, false_or] at hm
                have := release_own _ _ _ _ hm
                simp [isOverrideCall] at this
              · simp at hm
            · have := release_own _ _ _ _ hm
              simp [isOverrideCall] at this
          · simp
        · have ho : st.override process = none := by
            unfold OverrideState.override
            simp [hon]
          intro hm
          have := process_own c sw { s with override := st.override process } ho _ hm
          simp [isOverrideCall] at this

end PySwitch.Tuner
