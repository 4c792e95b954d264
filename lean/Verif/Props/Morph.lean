import Verif.Spec.Morph
import Verif.Lemmas.Num
import Verif.Lemmas.Tuner
/-
Properties C61 and C77: morph displays.
-/
namespace PySwitch.Props
open PySwitch PySwitch.Morph PySwitch.Spec

private theorem frac (v : Int) (h0 : 0 ≤ v) (h1 : v ≤ 16383) : 0 ≤ (v : Rat) / 16383 ∧ (v : Rat) / 16383 ≤ 1 := by
  have hc : (0 : Rat) < 16383 := by grind
  refine ⟨rat_div_nonneg hc (Rat.intCast_nonneg.2 h0), ?_⟩
  have := rat_div_le_div hc (Rat.intCast_le_intCast.2 h1)
  have e : ((16383 : Int) : Rat) / 16383 = 1 := by grind
  rwa [e] at this

private theorem pyInt_mono' {x y : Rat} (h : x ≤ y) : pyInt x ≤ pyInt y := Tuner.pyInt_monotone h

private theorem channel_between (a b v : Int) (h0 : 0 ≤ v) (h1 : v ≤ 16383) : Between a b (channel a b v) := by
  obtain ⟨f0, f1⟩ := frac v h0 h1
  unfold channel Between
  rcases Int.le_total a b with h | h
  · left
    have hd : (0 : Rat) ≤ ((b - a : Int) : Rat) := Rat.intCast_nonneg.2 (by omega)
    have e0 : (0 : Rat) ≤ ((b - a : Int) : Rat) * ((v : Rat) / 16383) := Rat.mul_nonneg hd f0
    have e1 : ((b - a : Int) : Rat) * ((v : Rat) / 16383) ≤ ((b - a : Int) : Rat) := by
      have := Rat.mul_le_mul_of_nonneg_left f1 hd
      rwa [Rat.mul_one] at this
    have p0 := pyInt_nonneg e0
    have p1 := pyInt_mono' e1
    rw [pyInt_intCast] at p1
    omega
  · right
    have hd : (0 : Rat) ≤ ((a - b : Int) : Rat) := Rat.intCast_nonneg.2 (by omega)
    have hneg : ((b - a : Int) : Rat) = -((a - b : Int) : Rat) := by rw [← Rat.intCast_neg]; congr 1; omega
    have e0 : ((b - a : Int) : Rat) * ((v : Rat) / 16383) ≤ ((0 : Int) : Rat) := by
      have := Rat.mul_nonneg hd f0
      rw [hneg, Rat.neg_mul]
      show _ ≤ (0 : Rat)
      grind
    have e1 : ((b - a : Int) : Rat) ≤ ((b - a : Int) : Rat) * ((v : Rat) / 16383) := by
      have := Rat.mul_le_mul_of_nonneg_left f1 hd
      rw [Rat.mul_one] at this
      rw [hneg, Rat.neg_mul]
      grind
    have p0 := pyInt_mono' e0
    have p1 := pyInt_mono' e1
    rw [pyInt_intCast] at p0 p1
    omega

private theorem channel_zero (a b : Int) : channel a b 0 = a := by
  unfold channel
  rw [show ((0 : Int) : Rat) / 16383 = ((0 : Int) : Rat) by grind, show ((b - a : Int) : Rat) * ((0 : Int) : Rat) = ((0 : Int) : Rat) from Rat.mul_zero _,
    pyInt_intCast]
  omega

private theorem channel_full (a b : Int) : channel a b 16383 = b := by
  unfold channel
  rw [show ((16383 : Int) : Rat) / 16383 = 1 by grind, Rat.mul_one, pyInt_intCast]
  omega

private theorem channel_mono (a b v w : Int) (h : v ≤ w) :
    (a ≤ b → channel a b v ≤ channel a b w) ∧ (b ≤ a → channel a b w ≤ channel a b v) := by
  have hc : (0 : Rat) < 16383 := by grind
  have hf := rat_div_le_div hc (Rat.intCast_le_intCast.2 h)
  unfold channel
  constructor
  · intro hab
    have := pyInt_mono' (Rat.mul_le_mul_of_nonneg_left hf (Rat.intCast_nonneg.2 (show 0 ≤ b - a by omega)))
    omega
  · intro hab
    have hneg : ((b - a : Int) : Rat) = -((a - b : Int) : Rat) := by rw [← Rat.intCast_neg]; congr 1; omega
    have h1 := Rat.mul_le_mul_of_nonneg_left hf (Rat.intCast_nonneg.2 (show 0 ≤ a - b by omega))
    have h2 : ((b - a : Int) : Rat) * ((w : Rat) / 16383) ≤ ((b - a : Int) : Rat) * ((v : Rat) / 16383) := by
      rw [hneg, Rat.neg_mul, Rat.neg_mul]; grind
    have := pyInt_mono' h2
    omega

/-- C61. For every morph value a device can report, each channel of the color lies between those of the two end colors. -/
theorem C61_between (c : Morph.Config) (shared value : Option Int) (v : Int) (hf : c.fix = none)
    (hv : (shared.or value) = some v) (h0 : 0 ≤ v) (h1 : v ≤ 16383) :
    Between c.base.r c.morph.r (getColor c shared value).r ∧ Between c.base.g c.morph.g (getColor c shared value).g ∧
    Between c.base.b c.morph.b (getColor c shared value).b := by
  have : getColor c shared value = ⟨channel c.base.r c.morph.r v, channel c.base.g c.morph.g v, channel c.base.b c.morph.b v⟩ := by
    unfold getColor
    cases shared with
    | none => simp only [Option.none_or] at hv; simp [hv, hf]
    | some s => simp only [Option.some_or, Option.some.injEq] at hv; simp [hv, hf]
  rw [this]
  exact ⟨channel_between _ _ v h0 h1, channel_between _ _ v h0 h1, channel_between _ _ v h0 h1⟩

/-- C61. At the ends, it is exactly the end color. -/
theorem C61_ends (c : Morph.Config) (hf : c.fix = none) (value : Option Int) :
    getColor c (some 0) value = c.base ∧ getColor c (some 16383) value = c.morph ∧
    getColor c none (some 0) = c.base ∧ getColor c none (some 16383) = c.morph := by
  simp only [getColor, hf, channel_zero, channel_full]
  exact ⟨trivial, trivial, trivial, trivial⟩

/-- C61. With increasing morph, every channel moves towards the morphed color only. -/
theorem C61_monotone (c : Morph.Config) (hf : c.fix = none) (v w : Int) (h : v ≤ w) :
    let a := getColor c (some v) none
    let b := getColor c (some w) none
    (c.base.r ≤ c.morph.r → a.r ≤ b.r) ∧ (c.morph.r ≤ c.base.r → b.r ≤ a.r) ∧
    (c.base.g ≤ c.morph.g → a.g ≤ b.g) ∧ (c.morph.g ≤ c.base.g → b.g ≤ a.g) ∧
    (c.base.b ≤ c.morph.b → a.b ≤ b.b) ∧ (c.morph.b ≤ c.base.b → b.b ≤ a.b) := by
  simp only [getColor, hf]
  exact ⟨(channel_mono _ _ v w h).1, (channel_mono _ _ v w h).2, (channel_mono _ _ v w h).1, (channel_mono _ _ v w h).2,
    (channel_mono _ _ v w h).1, (channel_mono _ _ v w h).2⟩

/-- C61. A fixed color is shown for every known value, white as long as nothing is known, and the common state of the displays
has precedence over the value of the device. -/
theorem C61_fixed (c : Morph.Config) (v w : Int) (f : Color) :
    (c.fix = some f → getColor c (some v) none = f ∧ getColor c none (some v) = f) ∧
    getColor c none none = ⟨255, 255, 255⟩ ∧ getColor c (some v) (some w) = getColor c (some v) none := by
  refine ⟨fun h => ?_, rfl, rfl⟩
  simp [getColor, h]

example : getColor {} (some 8192) none = ⟨128, 0, 127⟩ := by decide +kernel
example : getColor { base := ⟨10, 200, 0⟩, morph := ⟨20, 100, 0⟩ } (some 4096) none = ⟨12, 175, 0⟩ := by decide +kernel

/-- What the callback knows of the history. -/
private structure Knows (cb : Callback) (last : Option Int) (ig : Bool) : Prop where
  isLast : cb.last = last
  ignore : cb.ignore = ig
  current : ∀ v, cb.current = some (some v) → last = some v

/-- Drawing with a value `v` for the mapping. -/
private theorem draw_knows (c : Morph.Config) (hc : c.internal = true) (shared : Option Int) (cb : Callback) (last : Option Int) (ig : Bool)
    (h : Knows cb last ig) :
    (∀ v, cb.value = some v →
      (draw c shared cb).1 = (if last = some v ∨ ig = true then shared else some v) ∧
      Knows (draw c shared cb).2 (some v) (if last = some v then ig else false)) ∧
    (cb.value = none → (draw c shared cb).1 = shared ∧ Knows (draw c shared cb).2 last ig) ∧
    (draw c shared cb).2.value = cb.value ∧
    (draw c shared cb).2.shown = some (getColor c (draw c shared cb).1 cb.value) := by
  refine ⟨?_, ?_, ?_, ?_⟩
  · intro v hv
    obtain ⟨value, current, last', ignore, shown⟩ := cb
    obtain ⟨h1, h2, h3⟩ := h
    simp only at hv h1 h2 h3
    subst hv h1 h2
    unfold draw
    simp only
    by_cases hcur : current = some (some v)
    · have hl := h3 v hcur
      subst hl hcur
      simp only [ne_eq, not_true_eq_false, if_false, true_or, if_true]
      exact ⟨trivial, rfl, rfl, fun w hw => by simpa using hw⟩
    · simp only [ne_eq, hcur, not_false_eq_true, if_true]
      unfold evaluate
      simp only [hc, true_and]
      by_cases hl : last' = some v
      · simp only [hl, ne_eq, not_true_eq_false, if_false, true_or, if_true]
        exact ⟨trivial, rfl, rfl, fun w hw => by simpa using hw⟩
      · cases ignore
        · simp only [hl, ne_eq, not_false_eq_true, if_true, if_false, Bool.false_eq_true, or_self]
          exact ⟨trivial, rfl, rfl, fun w hw => by simpa using hw⟩
        · simp only [hl, ne_eq, not_false_eq_true, if_true, if_false, false_or]
          exact ⟨trivial, rfl, rfl, fun w hw => by simpa using hw⟩
  · intro hv
    unfold draw
    simp only [hv]
    split
    · exact ⟨rfl, h.isLast, h.ignore, fun w hw => by simp [evaluate] at hw⟩
    · exact ⟨rfl, h.isLast, h.ignore, h.current⟩
  · unfold draw
    simp only
    split
    · unfold evaluate
      split
      · rfl
      · split
        · split <;> rfl
        · rfl
    · rfl
  · unfold draw
    simp only [hc, if_true]


/-- What is known of callback `k` in a state. -/
private def At (st : State) (k : Nat) (last : Option Int) (ig : Bool) : Prop :=
  ∃ cb, st.cbs[k]? = some cb ∧ Knows cb last ig ∧ ∀ v, cb.value = some v → last = some v

/-- What one event changes of what is known of callback `k`. -/
private def nextLast (k : Nat) (last : Option Int) : Event → Option Int
  | .value j (some v) => if j = k then some v else last
  | _ => last

private def nextIg (k : Nat) (last : Option Int) (ig : Bool) : Event → Bool
  | .value j (some v) => if j = k then (if last = some v then ig else false) else ig
  | .enabling j => if j = k then true else ig
  | _ => ig

private theorem drawAt_at (c : Morph.Config) (hc : c.internal = true) (st : State) (k : Nat) (cb : Callback) (hk : k < st.cbs.length)
    (last : Option Int) (ig : Bool) (h : Knows cb last ig) (hv : ∀ v, cb.value = some v → last = some v) :
    (drawAt c st k cb).shared = st.shared ∧ At (drawAt c st k cb) k last ig := by
  obtain ⟨d1, d2, d3, -⟩ := draw_knows c hc st.shared cb last ig h
  unfold drawAt
  cases hcv : cb.value with
  | none =>
    obtain ⟨e1, e2⟩ := d2 hcv
    exact ⟨e1, _, by simp [hk], e2, fun v h' => hv v (d3 ▸ h')⟩
  | some v =>
    obtain ⟨e1, e2⟩ := d1 v hcv
    have hl := hv v hcv
    rw [hl] at e1 e2 hv ⊢
    simp only [true_or, if_true] at e1 e2
    exact ⟨e1, _, by simp [hk], e2, fun w h' => hv w (d3 ▸ h')⟩

private theorem set_other (st : State) (c : Morph.Config) (j k : Nat) (cb : Callback) (h : j ≠ k) :
    (drawAt c st j cb).cbs[k]? = st.cbs[k]? := by
  unfold drawAt
  simp [h]

private theorem step_at (cs : List Morph.Config) (k : Nat) (c : Morph.Config) (hck : cs[k]? = some c) (hc : c.internal = true)
    (st : State) (e : Event) (last : Option Int) (ig : Bool) (h : At st k last ig) :
    At (step cs st e) k (nextLast k last e) (nextIg k last ig e) := by
  obtain ⟨cb, hcb, hkn, hval⟩ := h
  have hlen : k < st.cbs.length := (List.getElem?_eq_some_iff.1 hcb).1
  cases e with
  | init j =>
    simp only [step, nextLast, nextIg]
    split
    · split <;> exact ⟨cb, hcb, hkn, hval⟩
    · exact ⟨cb, hcb, hkn, hval⟩
  | external v => exact ⟨cb, hcb, hkn, hval⟩
  | enabling j =>
    simp only [step, nextLast, nextIg]
    by_cases hj : j = k
    · subst hj
      rw [hcb]
      simp only [if_true]
      exact ⟨{ cb with ignore := true }, by simp [hlen], ⟨hkn.isLast, rfl, hkn.current⟩, hval⟩
    · rw [if_neg hj]
      split
      · exact ⟨cb, by simp [hj, hcb], hkn, hval⟩
      · exact ⟨cb, hcb, hkn, hval⟩
  | reset j =>
    simp only [step, nextLast, nextIg]
    by_cases hj : j = k
    · subst hj
      rw [hck, hcb]
      simp only
      exact (drawAt_at c hc st j { cb with current := none } hlen last ig
        ⟨hkn.isLast, hkn.ignore, by simp⟩ hval).2
    · split
      · exact ⟨cb, by rw [set_other _ _ _ _ _ hj, hcb], hkn, hval⟩
      · exact ⟨cb, hcb, hkn, hval⟩
  | user j s =>
    simp only [step, nextLast, nextIg]
    by_cases hj : j = k
    · subst hj
      rw [hck, hcb]
      simp only
      split
      · exact (drawAt_at c hc { st with shared := toggle st.shared } j cb hlen last ig hkn hval).2
      · exact (drawAt_at c hc st j cb hlen last ig hkn hval).2
    · split
      · split
        · exact ⟨cb, by rw [set_other _ _ _ _ _ hj]; exact hcb, hkn, hval⟩
        · exact ⟨cb, by rw [set_other _ _ _ _ _ hj, hcb], hkn, hval⟩
      · exact ⟨cb, hcb, hkn, hval⟩
  | value j w =>
    by_cases hj : j = k
    · subst hj
      simp only [step, hck, hcb]
      cases w with
      | none =>
        simp only [nextLast, nextIg]
        exact (drawAt_at c hc st j { cb with value := none } hlen last ig
          ⟨hkn.isLast, hkn.ignore, hkn.current⟩ (by simp)).2
      | some v =>
        simp only [nextLast, nextIg, if_true]
        obtain ⟨d1, -, d3, -⟩ := draw_knows c hc st.shared { cb with value := some v } last ig
          ⟨hkn.isLast, hkn.ignore, hkn.current⟩
        unfold drawAt
        exact ⟨_, by simp [hlen], (d1 v rfl).2, fun x hx => by rw [d3] at hx; exact hx⟩
    · have hn : nextLast k last (.value j w) = last := by cases w <;> simp [nextLast, hj]
      have hi : nextIg k last ig (.value j w) = ig := by cases w <;> simp [nextIg, hj]
      rw [hn, hi]
      simp only [step]
      split
      · exact ⟨cb, by rw [set_other _ _ _ _ _ hj, hcb], hkn, hval⟩
      · exact ⟨cb, hcb, hkn, hval⟩

private theorem ignoring_cons (k : Nat) (last : Option Int) (ig : Bool) (e : Event) (es : List Event) :
    ignoring k last ig (e :: es) = ignoring k (nextLast k last e) (nextIg k last ig e) es := by
  cases e with
  | value j w =>
    cases w with
    | none => rfl
    | some v => simp only [ignoring, nextLast, nextIg]; split <;> rfl
  | enabling j => rfl
  | init j => rfl
  | user j s => rfl
  | external v => rfl
  | reset j => rfl

private theorem run_at (cs : List Morph.Config) (k : Nat) (c : Morph.Config) (hck : cs[k]? = some c) (hc : c.internal = true)
    (es : List Event) (st : State) (last : Option Int) (ig : Bool) (h : At st k last ig) :
    At (Morph.run cs st es) k (es.foldl (nextLast k) last) (ignoring k last ig es) := by
  induction es generalizing st last ig with
  | nil => exact h
  | cons e es ih =>
    rw [ignoring_cons]
    exact ih _ _ _ (step_at cs k c hck hc st e last ig h)

private theorem reported_eq (k : Nat) (es : List Event) : reported k es = es.foldl (nextLast k) none := by
  unfold reported
  rfl

private theorem run_start (cs : List Morph.Config) (k : Nat) (c : Morph.Config) (hck : cs[k]? = some c) (hc : c.internal = true)
    (es : List Event) : At (Morph.run cs (start cs.length) es) k (reported k es) (ignoring k none false es) := by
  have hk : k < cs.length := (List.getElem?_eq_some_iff.1 hck).1
  rw [reported_eq]
  exact run_at cs k c hck hc es _ none false ⟨{}, by simp [start, hk], ⟨rfl, rfl, by simp⟩, by simp⟩

/-- C77. For every history: a value from the device becomes the common morph state of the displays exactly if it differs from the
one reported to this display before and is not the first one after the display has been enabled or disabled, and afterwards the
display shows the color for the common state. -/
theorem C77_value (cs : List Morph.Config) (k : Nat) (c : Morph.Config) (hck : cs[k]? = some c) (hc : c.internal = true)
    (es : List Event) (v : Int) :
    let st := Morph.run cs (start cs.length) es
    let st' := step cs st (.value k (some v))
    st'.shared = (if reported k es = some v ∨ ignoring k none false es = true then st.shared else some v) ∧
    ∃ cb, st'.cbs[k]? = some cb ∧ cb.shown = some (getColor c st'.shared (some v)) := by
  intro st st'
  obtain ⟨cb, hcb, hkn, hval⟩ := run_start cs k c hck hc es
  have hlen : k < st.cbs.length := (List.getElem?_eq_some_iff.1 hcb).1
  obtain ⟨d1, -, d3, d4⟩ := draw_knows c hc st.shared { cb with value := some v } _ _
    ⟨hkn.isLast, hkn.ignore, hkn.current⟩
  have e : st' = drawAt c st k { cb with value := some v } := by
    simp only [st', step, hck, show st.cbs[k]? = some cb from hcb]
  rw [e]
  unfold drawAt
  exact ⟨(d1 v rfl).1, _, by simp [hlen], d4⟩

/-- C77. In particular, as long as the displays have not been enabled or disabled, a new value from the device is shown. -/
theorem C77_follows_partial (cs : List Morph.Config) (k : Nat) (c : Morph.Config) (hck : cs[k]? = some c) (hc : c.internal = true)
    (es : List Event) (v : Int) (hn : reported k es ≠ some v) (he : .enabling k ∉ es) :
    let st' := step cs (Morph.run cs (start cs.length) es) (.value k (some v))
    st'.shared = some v ∧ ∃ cb, st'.cbs[k]? = some cb ∧ cb.shown = some (getColor c (some v) none) := by
  intro st'
  have key : ∀ (es : List Event) (last : Option Int), .enabling k ∉ es → ignoring k last false es = false := by
    intro es
    induction es with
    | nil => intro last _; rfl
    | cons e es ih =>
      intro last h
      rw [ignoring_cons]
      have : nextIg k last false e = false := by
        cases e with
        | value j w => cases w with
          | none => rfl
          | some v => simp [nextIg]
        | enabling j =>
          have : j ≠ k := by rintro rfl; simp at h
          simp [nextIg, this]
        | _ => rfl
      rw [this]
      exact ih _ (fun hx => h (by simp [hx]))
  obtain ⟨h1, cb, h2, h3⟩ := C77_value cs k c hck hc es v
  have hs : st'.shared = some v := by
    rw [show st'.shared = _ from h1, if_neg (by rw [key es none he]; simp [hn])]
  refine ⟨hs, cb, h2, ?_⟩
  rw [h3, show (step cs (Morph.run cs (start cs.length) es) (.value k (some v))).shared = some v from hs]
  rfl

/-- C77. A press of the morph button toggles between unmorphed and completely morphed, and shows it; the release leaves the state. -/
theorem C77_press (cs : List Morph.Config) (k : Nat) (c : Morph.Config) (hck : cs[k]? = some c) (hc : c.internal = true)
    (hs : c.suppressSend = false) (es : List Event) :
    let st := Morph.run cs (start cs.length) es
    let st' := step cs st (.user k true)
    st'.shared = (if ∃ v, st.shared = some v ∧ 0 < v then some 0 else some 16383) ∧
    (∃ cb, st'.cbs[k]? = some cb ∧ cb.shown = some (getColor c st'.shared none)) ∧
    (step cs st' (.user k false)).shared = st'.shared := by
  intro st st'
  have hat := run_start cs k c hck hc es
  obtain ⟨cb, hcb, hkn, hval⟩ := hat
  have hlen : k < st.cbs.length := (List.getElem?_eq_some_iff.1 hcb).1
  have e : st' = drawAt c { st with shared := toggle st.shared } k cb := by
    simp [st', step, hck, show st.cbs[k]? = some cb from hcb, hs, hc]
  have d := drawAt_at c hc { st with shared := toggle st.shared } k cb hlen _ _ hkn hval
  obtain ⟨-, -, -, d4⟩ := draw_knows c hc (toggle st.shared) cb _ _ hkn
  have hsh : st'.shared = toggle st.shared := by rw [e]; exact d.1
  refine ⟨?_, ?_, ?_⟩
  · rw [hsh]
    unfold toggle
    cases hx : st.shared with
    | none => simp
    | some v =>
      by_cases hv : 0 < v
      · simp [hv]
      · simp [hv]
  · refine ⟨(draw c (toggle st.shared) cb).2, ?_, ?_⟩
    · rw [e]; unfold drawAt; simp [hlen]
    · rw [d4, hsh]
      have : (draw c (toggle st.shared) cb).1 = toggle st.shared := d.1
      rw [this]
      rfl
  · obtain ⟨cb', hcb', hkn', hval'⟩ := step_at cs k c hck hc st (.user k true) _ _ ⟨cb, hcb, hkn, hval⟩
    have hlen' : k < st'.cbs.length := (List.getElem?_eq_some_iff.1 hcb').1
    have e' : step cs st' (.user k false) = drawAt c st' k cb' := by
      simp [step, hck, show st'.cbs[k]? = some cb' from hcb']
    rw [e']
    exact (drawAt_at c hc st' k cb' hlen' _ _ hkn' hval').1

/-- C77. A display which does not take part in the common state never changes it, and always shows the color of the value last
received for itself. -/
theorem C77_own (cs : List Morph.Config) (k : Nat) (c : Morph.Config) (hck : cs[k]? = some c) (hc : c.internal = false)
    (st : State) (cb : Callback) (hcb : st.cbs[k]? = some cb) (v : Option Int) (pressed : Bool) :
    (let st' := step cs st (.value k v)
     st'.shared = st.shared ∧ ∃ cb', st'.cbs[k]? = some cb' ∧ cb'.value = v ∧ cb'.shown = some (getColor c none v)) ∧
    (let st' := step cs st (.user k pressed)
     st'.shared = st.shared ∧ ∃ cb', st'.cbs[k]? = some cb' ∧ cb'.value = cb.value ∧ cb'.shown = some (getColor c none cb.value)) ∧
    (let st' := step cs st (.reset k)
     st'.shared = st.shared ∧ ∃ cb', st'.cbs[k]? = some cb' ∧ cb'.value = cb.value ∧ cb'.shown = some (getColor c none cb.value)) ∧
    (step cs st (.init k)).shared = st.shared := by
  have hlen : k < st.cbs.length := (List.getElem?_eq_some_iff.1 hcb).1
  have key : ∀ cb : Callback, (draw c st.shared cb).1 = st.shared ∧ (draw c st.shared cb).2.value = cb.value ∧
      (draw c st.shared cb).2.shown = some (getColor c none cb.value) := by
    intro cb
    unfold draw evaluate
    simp only [hc, Bool.false_eq_true, false_and, if_false]
    split
    · split <;> exact ⟨rfl, rfl, trivial⟩
    · exact ⟨rfl, rfl, trivial⟩
  refine ⟨?_, ?_, ?_, ?_⟩
  · obtain ⟨h1, h2, h3⟩ := key { cb with value := v }
    simp only [step, hck, hcb, drawAt]
    exact ⟨h1, _, by simp [hlen], h2, h3⟩
  · obtain ⟨h1, h2, h3⟩ := key cb
    simp only [step, hck, hcb, drawAt, hc, Bool.and_false, Bool.false_and, Bool.false_eq_true, if_false]
    exact ⟨h1, _, by simp [hlen], h2, h3⟩
  · obtain ⟨h1, h2, h3⟩ := key { cb with current := none }
    simp only [step, hck, hcb, drawAt]
    exact ⟨h1, _, by simp [hlen], h2, h3⟩
  · simp [step, hck, hc]

example : let c : Morph.Config := { internal := false }
    let st := Morph.run [{}, c] (start 2) [.init 0, .init 1, .value 0 (some 16383), .value 1 (some 0)]
    st.shared = some 16383 ∧ (st.cbs[1]?.bind (·.shown)) = some c.base := by decide +kernel

/-- C77. A button which sends nothing (only displays) does not toggle the common state either. -/
theorem C77_display_only (cs : List Morph.Config) (k : Nat) (c : Morph.Config) (hck : cs[k]? = some c) (hc : c.internal = true)
    (hs : c.suppressSend = true) (es : List Event) (pressed : Bool) :
    let st := Morph.run cs (start cs.length) es
    (step cs st (.user k pressed)).shared = st.shared := by
  intro st
  obtain ⟨cb, hcb, hkn, hval⟩ := run_start cs k c hck hc es
  have hlen : k < st.cbs.length := (List.getElem?_eq_some_iff.1 hcb).1
  have e : step cs st (.user k pressed) = drawAt c st k cb := by
    simp [step, hck, show st.cbs[k]? = some cb from hcb, hs]
  rw [e]
  exact (drawAt_at c hc st k cb hlen _ _ hkn hval).1

/-- C77. A change of the common state from elsewhere (a rig or bank change) is the common state, and what a display shows when it
is drawn the next time without a new value. -/
theorem C77_external (cs : List Morph.Config) (k : Nat) (c : Morph.Config) (hck : cs[k]? = some c) (hc : c.internal = true)
    (es : List Event) (v : Int) :
    let st := step cs (Morph.run cs (start cs.length) es) (.external v)
    st.shared = some v ∧
    (let st' := step cs st (.user k false)
     st'.shared = some v ∧ ∃ cb, st'.cbs[k]? = some cb ∧ cb.shown = some (getColor c (some v) none)) ∧
    (let st' := step cs st (.reset k)
     st'.shared = some v ∧ ∃ cb, st'.cbs[k]? = some cb ∧ cb.shown = some (getColor c (some v) none)) := by
  intro st
  have hat := run_start cs k c hck hc es
  obtain ⟨cb, hcb, hkn, hval⟩ := hat
  have hcb' : st.cbs[k]? = some cb := hcb
  have hlen : k < st.cbs.length := (List.getElem?_eq_some_iff.1 hcb').1
  have key : ∀ cb : Callback, Knows cb (reported k es) (ignoring k none false es) →
      (∀ v, cb.value = some v → reported k es = some v) → (drawAt c st k cb).shared = some v ∧
      ∃ cb', (drawAt c st k cb).cbs[k]? = some cb' ∧ cb'.shown = some (getColor c (some v) none) := by
    intro cb hkn hval
    have d := drawAt_at c hc st k cb hlen _ _ hkn hval
    obtain ⟨-, -, -, d4⟩ := draw_knows c hc st.shared cb _ _ hkn
    refine ⟨d.1, (draw c st.shared cb).2, by unfold drawAt; simp [hlen], ?_⟩
    rw [d4, show (draw c st.shared cb).1 = some v from d.1]
    rfl
  refine ⟨rfl, ?_, ?_⟩
  · have e : step cs st (.user k false) = drawAt c st k cb := by simp [step, hck, hcb']
    rw [e]
    exact key cb hkn hval
  · have e : step cs st (.reset k) = drawAt c st k { cb with current := none } := by simp [step, hck, hcb']
    rw [e]
    exact key _ ⟨hkn.isLast, hkn.ignore, by simp⟩ hval

/-- C77. What is missing: after a press of the button, a device which is not morphed and reports this again and again is not believed
(the value has not changed), so the display keeps showing the morphed color. -/
theorem C77_stuck :
    let c : Morph.Config := {}
    let st := Morph.run [c] (start 1) ([.init 0, .value 0 (some 0), .user 0 true, .user 0 false] ++ List.replicate 50 (.value 0 (some 0)))
    (st.cbs[0]?.bind (·.shown)) = some c.morph := by decide +kernel

/-- C77. And a display whose action has been enabled in between ignores the first value, even if it is a true change. -/
theorem C77_ignored :
    let c : Morph.Config := {}
    let st := Morph.run [c] (start 1) [.init 0, .value 0 (some 0), .enabling 0, .value 0 (some 16383)]
    (st.cbs[0]?.bind (·.shown)) = some c.base := by decide +kernel

/-- C77. Other displays do not change before their own next event, though the state is common to all. -/
theorem C77_other_late :
    let c : Morph.Config := {}
    let st := Morph.run [c, c] (start 2) [.init 0, .init 1, .value 0 (some 0), .value 1 (some 0), .user 0 true]
    (st.cbs[0]?.bind (·.shown)) = some c.morph ∧ (st.cbs[1]?.bind (·.shown)) = some c.base ∧
    ((step [c, c] st (.value 1 (some 0))).cbs[1]?.bind (·.shown)) = some c.morph := by decide +kernel

example : reported 0 [.value 0 (some 5), .value 1 (some 6), .value 0 none] = some 5 := by decide
example : ignoring 0 none false [.enabling 0, .value 0 (some 5), .value 0 (some 6)] = false := by decide

end PySwitch.Props
