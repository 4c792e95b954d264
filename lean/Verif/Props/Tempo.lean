import Verif.Spec.Tempo
/-
C82: the tempo display.
-/
namespace PySwitch.Props
open PySwitch PySwitch.Tempo

namespace C82

theorem run_append (c : Tempo.Config) (st : Tempo.State) (a b : List Event) :
    run c st (a ++ b) = ((run c st a).1 ++ (run c (run c st a).2 b).1, (run c (run c st a).2 b).2) := by
  induction a generalizing st with
  | nil => rfl
  | cons e a ih => simp [run, ih]

/-- The values stored. -/
def Same (a b : Tempo.State) : Prop :=
  a.pulse = b.pulse ∧ a.tuner = b.tuner ∧ a.bpm = b.bpm ∧ a.rig = b.rig ∧ a.enabled = b.enabled ∧ a.lastEnabled = b.lastEnabled

theorem textPart_same (c : Tempo.Config) (st : Tempo.State) : Same (textPart c st).1 st ∧ (textPart c st).1.current = st.current := by
  unfold textPart
  split
  · split <;> exact ⟨⟨rfl, rfl, rfl, rfl, rfl, rfl⟩, rfl⟩
  · exact ⟨⟨rfl, rfl, rfl, rfl, rfl, rfl⟩, rfl⟩

theorem ledPart_same (st : Tempo.State) : Same (ledPart st).1 st ∧ (ledPart st).1.lastBpm = st.lastBpm ∧ (ledPart st).1.lastRig = st.lastRig := by
  unfold ledPart
  split
  · exact ⟨⟨rfl, rfl, rfl, rfl, rfl, rfl⟩, rfl, rfl⟩
  · split <;> exact ⟨⟨rfl, rfl, rfl, rfl, rfl, rfl⟩, rfl, rfl⟩

theorem draw_same (c : Tempo.Config) (st : Tempo.State) : Same (draw c st).1 st := by
  unfold draw
  split
  · unfold updateDisplays
    split
    · exact ⟨rfl, rfl, rfl, rfl, rfl, rfl⟩
    · obtain ⟨a1, a2, a3, a4, a5, a6⟩ := (ledPart_same st).1
      obtain ⟨b1, b2, b3, b4, b5, b6⟩ := (textPart_same c (ledPart st).1).1
      exact ⟨b1.trans a1, b2.trans a2, b3.trans a3, b4.trans a4, b5.trans a5, b6.trans a6⟩
  · exact ⟨rfl, rfl, rfl, rfl, rfl, rfl⟩

/-- What the LEDs and the label show fits to what is remembered. -/
structure Inv (c : Tempo.Config) (l : Option Bool) (t : Option String) (st : Tempo.State) : Prop where
  led : l = st.current.map (fun v => decide (v > 0))
  text : c.label = true → t = st.lastBpm.map (fun b => c.text (LabelText.convertBpm b))

theorem leds_append (a b : List Eff) : leds (a ++ b) = b.foldl ledAfter (leds a) := by
  simp [leds, List.foldl_append]

theorem label_append (a b : List Eff) : label (a ++ b) = b.foldl textAfter (label a) := by
  simp [label, List.foldl_append]

/-- Drawing, if nothing prevents it. -/
theorem draw_inv (c : Tempo.Config) (hne : ∀ s, c.text s ≠ "") (es : List Eff) (st : Tempo.State) (h : Inv c (leds es) (label es) st) :
    Inv c (leds (es ++ (draw c st).2)) (label (es ++ (draw c st).2)) (draw c st).1 ∧
    (st.enabled = true → st.tuner ≠ some 1 →
      (∀ v, st.pulse = some v → (draw c st).1.current = some v) ∧
      (∀ b, c.resolve = true → st.bpm = some b → (draw c st).1.lastBpm = some b)) := by
  obtain ⟨hl, ht⟩ := h
  have led : leds (es ++ (ledPart st).2) = (ledPart st).1.current.map (fun v => decide (v > 0)) ∧
      label (es ++ (ledPart st).2) = label es ∧ (∀ v, st.pulse = some v → (ledPart st).1.current = some v) := by
    unfold ledPart
    split
    · next hp => exact ⟨by simpa using hl, by simp, by simp [hp]⟩
    · next v hp =>
      split
      · refine ⟨?_, ?_, ?_⟩
        · rw [leds_append]; rfl
        · rw [label_append]; rfl
        · intro w hw; rw [hp] at hw; exact hw
      · next hc =>
        refine ⟨by simpa using hl, by simp, ?_⟩
        intro w hw
        rw [hp] at hw
        rw [← hw]
        simpa using hc
  unfold draw
  split
  · next hen =>
    unfold updateDisplays
    split
    · next htu => exact ⟨by simpa using ⟨hl, ht⟩, fun _ h => absurd htu h⟩
    · next htu =>
      obtain ⟨l1, l2, l3⟩ := led
      have hs := (ledPart_same st).1
      have hlb := (ledPart_same st).2.1
      generalize hr : ledPart st = r at l1 l2 l3 hs hlb
      obtain ⟨st', e1⟩ := r
      simp only at l1 l2 l3 hs hlb
      simp only
      have hc := (textPart_same c st').2
      refine ⟨⟨?_, ?_⟩, fun _ _ => ⟨?_, ?_⟩⟩
      · rw [List.append_assoc, ← List.append_assoc es, leds_append, l1, hc]
        generalize st'.current.map _ = x
        have : ∀ (t : Option String), (labelPart c t).foldl ledAfter x = x := by
          intro t
          unfold labelPart
          split
          · cases t with
            | none => rfl
            | some t => simp only; split <;> rfl
          · rfl
        rw [List.foldl_append]
        have hp : (textPart c st').2.2.foldl ledAfter x = x := by
          unfold textPart
          split
          · split
            · simp only; split <;> rfl
            · rfl
          · rfl
        rw [hp, this]
      · intro hlab
        rw [List.append_assoc, ← List.append_assoc es, label_append, l2, ht hlab, ← hlb]
        unfold labelPart
        rw [if_pos hlab]
        have hres : c.resolve = true := by simp [Config.resolve, hlab]
        unfold textPart
        rw [hres]
        split
        · next b hb =>
          split
          · next hch =>
            simp only
            rw [if_neg (hne _)]
            split <;> rfl
          · rfl
        · rfl
      · intro v hv
        rw [hc]
        exact l3 v hv
      · intro b hres hb
        unfold textPart
        rw [hres, hs.2.2.1, hb]
        simp only
        split
        · rfl
        · next h => simpa using h
  · next hen => exact ⟨by simpa using ⟨hl, ht⟩, fun h => absurd h hen⟩

/-- The values after a history. -/
structure Known (c : Tempo.Config) (es : List Event) (st : Tempo.State) : Prop where
  pulse : st.pulse = lastPulse es
  tuner : st.tuner = lastTuner es
  bpm : c.resolve = true → st.bpm = lastTempo es
  enabled : st.enabled = isEnabled es

theorem snoc (es : List Event) (e : Event) :
    lastPulse (es ++ [e]) = (match e with | .pulse v => v | _ => lastPulse es) ∧
    lastTuner (es ++ [e]) = (match e with | .tuner v => v | _ => lastTuner es) ∧
    lastTempo (es ++ [e]) = (match e with | .bpm v => v | _ => lastTempo es) ∧
    isEnabled (es ++ [e]) = (match e with | .enable b => b | _ => isEnabled es) := by
  refine ⟨?_, ?_, ?_, ?_⟩
  · simp only [lastPulse, List.foldl_append, List.foldl_cons, List.foldl_nil]; cases e <;> rfl
  · simp only [lastTuner, List.foldl_append, List.foldl_cons, List.foldl_nil]; cases e <;> rfl
  · simp only [lastTempo, List.foldl_append, List.foldl_cons, List.foldl_nil]; cases e <;> rfl
  · simp only [isEnabled, List.foldl_append, List.foldl_cons, List.foldl_nil]; cases e <;> rfl

theorem known_step (c : Tempo.Config) (es : List Event) (st : Tempo.State) (h : Known c es st) (e : Event) :
    Known c (es ++ [e]) (step c st e).1 := by
  obtain ⟨h1, h2, h3, h4⟩ := h
  obtain ⟨s1, s2, s3, s4⟩ := snoc es e
  have D := fun s => draw_same c s
  cases e with
  | pulse v =>
    obtain ⟨a1, a2, a3, a4, a5, a6⟩ := D { st with pulse := v }
    exact ⟨by rw [s1]; exact a1, by rw [s2]; exact a2.trans h2, fun hc => by rw [s3]; exact a3.trans (h3 hc), by rw [s4]; exact a5.trans h4⟩
  | tuner v =>
    obtain ⟨a1, a2, a3, a4, a5, a6⟩ := D { st with tuner := v }
    exact ⟨by rw [s1]; exact a1.trans h1, by rw [s2]; exact a2, fun hc => by rw [s3]; exact a3.trans (h3 hc), by rw [s4]; exact a5.trans h4⟩
  | bpm v =>
    simp only [step]
    split
    · obtain ⟨a1, a2, a3, a4, a5, a6⟩ := D { st with bpm := v }
      exact ⟨by rw [s1]; exact a1.trans h1, by rw [s2]; exact a2.trans h2, fun hc => by rw [s3]; exact a3, by rw [s4]; exact a5.trans h4⟩
    · next hn => exact ⟨by rw [s1]; exact h1, by rw [s2]; exact h2, fun hc => absurd hc hn, by rw [s4]; exact h4⟩
  | rig v =>
    simp only [step]
    split
    · obtain ⟨a1, a2, a3, a4, a5, a6⟩ := D { st with rig := v }
      exact ⟨by rw [s1]; exact a1.trans h1, by rw [s2]; exact a2.trans h2, fun hc => by rw [s3]; exact a3.trans (h3 hc), by rw [s4]; exact a5.trans h4⟩
    · exact ⟨by rw [s1]; exact h1, by rw [s2]; exact h2, fun hc => by rw [s3]; exact h3 hc, by rw [s4]; exact h4⟩
  | enable b => exact ⟨by rw [s1]; exact h1, by rw [s2]; exact h2, fun hc => by rw [s3]; exact h3 hc, by rw [s4]; rfl⟩
  | reset => exact ⟨by rw [s1]; exact h1, by rw [s2]; exact h2, fun hc => by rw [s3]; exact h3 hc, by rw [s4]; exact h4⟩
  | tick =>
    simp only [step]
    split
    · obtain ⟨a1, a2, a3, a4, a5, a6⟩ := D { st with lastEnabled := some st.enabled }
      exact ⟨by rw [s1]; exact a1.trans h1, by rw [s2]; exact a2.trans h2, fun hc => by rw [s3]; exact a3.trans (h3 hc), by rw [s4]; exact a5.trans h4⟩
    · exact ⟨by rw [s1]; exact h1, by rw [s2]; exact h2, fun hc => by rw [s3]; exact h3 hc, by rw [s4]; exact h4⟩

theorem inv_step (c : Tempo.Config) (hne : ∀ s, c.text s ≠ "") (ef : List Eff) (st : Tempo.State) (h : Inv c (leds ef) (label ef) st)
    (e : Event) : Inv c (leds (ef ++ (step c st e).2)) (label (ef ++ (step c st e).2)) (step c st e).1 := by
  have keep : Inv c (leds (ef ++ [])) (label (ef ++ [])) st := by simpa using h
  have D := fun s (hs : Inv c (leds ef) (label ef) s) => (draw_inv c hne ef s hs).1
  cases e with
  | pulse v => exact D _ ⟨h.led, h.text⟩
  | tuner v => exact D _ ⟨h.led, h.text⟩
  | bpm v => simp only [step]; split; exact D _ ⟨h.led, h.text⟩; exact keep
  | rig v => simp only [step]; split; exact D _ ⟨h.led, h.text⟩; exact keep
  | enable b => exact ⟨keep.led, keep.text⟩
  | reset => exact keep
  | tick => simp only [step]; split; exact D _ ⟨h.led, h.text⟩; exact keep

theorem run_snoc (c : Tempo.Config) (es : List Event) (e : Event) :
    (run c {} (es ++ [e])).1.flatten = (run c {} es).1.flatten ++ (step c (run c {} es).2 e).2 ∧
    (run c {} (es ++ [e])).2 = (step c (run c {} es).2 e).1 := by
  rw [run_append]
  simp [run]

theorem inv (c : Tempo.Config) (hne : ∀ s, c.text s ≠ "") (es : List Event) :
    Known c es (run c {} es).2 ∧ Inv c (leds (run c {} es).1.flatten) (label (run c {} es).1.flatten) (run c {} es).2 := by
  have : ∀ (n : Nat) (es : List Event), es.length = n →
      Known c es (run c {} es).2 ∧ Inv c (leds (run c {} es).1.flatten) (label (run c {} es).1.flatten) (run c {} es).2 := by
    intro n
    induction n with
    | zero =>
      intro es he
      rw [List.length_eq_zero_iff.1 he]
      exact ⟨⟨rfl, rfl, fun _ => rfl, rfl⟩, ⟨rfl, fun _ => rfl⟩⟩
    | succ n ih =>
      intro es he
      rcases List.eq_nil_or_concat es with rfl | ⟨es', e, rfl⟩
      · simp at he
      · rw [List.concat_eq_append]
        obtain ⟨r1, r2⟩ := run_snoc c es' e
        obtain ⟨i1, i2⟩ := ih es' (by simpa using he)
        rw [r1, r2]
        exact ⟨known_step c es' _ i1 e, inv_step c hne _ _ i2 e⟩
  exact this _ es rfl

/-- The state before the drawing caused by a value. -/
theorem value_draw (c : Tempo.Config) (st : Tempo.State) (e : Event) (hv : e.isValue c = true) :
    ∃ s, step c st e = draw c s ∧ s.current = st.current ∧ s.lastBpm = st.lastBpm := by
  cases e with
  | pulse v => exact ⟨_, rfl, rfl, rfl⟩
  | tuner v => exact ⟨_, rfl, rfl, rfl⟩
  | bpm v => refine ⟨{ st with bpm := v }, ?_, rfl, rfl⟩; simp only [Event.isValue] at hv; simp [step, hv]
  | rig v => refine ⟨{ st with rig := v }, ?_, rfl, rfl⟩; simp only [Event.isValue] at hv; simp [step, hv]
  | enable b => simp [Event.isValue] at hv
  | reset => simp [Event.isValue] at hv
  | tick => simp [Event.isValue] at hv

theorem previews_append (a b : List Eff) : previews (a ++ b) = previews a ++ previews b := by
  induction a with
  | nil => rfl
  | cons e a ih => cases e <;> simp [previews, ih]

/-- The previews of a drawing. -/
theorem draw_preview (c : Tempo.Config) (hc : c.change = true) (st : Tempo.State) (hen : st.enabled = true) (ht : st.tuner ≠ some 1)
    (b : Nat) (hb : st.bpm = some b) :
    (draw c st).1.lastBpm = some b ∧ (draw c st).1.lastRig = (if st.lastBpm ≠ some b then st.rig else st.lastRig) ∧
    previews (draw c st).2 =
      (if st.lastBpm ≠ some b ∧ st.lastBpm ≠ none ∧ st.rig = st.lastRig then [c.text (LabelText.convertBpm b)] else []) := by
  have hres : c.resolve = true := by simp [Config.resolve, hc]
  obtain ⟨hs, hlb, hlr⟩ := ledPart_same st
  have hp : previews (ledPart st).2 = [] := by
    unfold ledPart
    split
    · rfl
    · split <;> rfl
  have hq : ∀ (t : Option String), previews (labelPart c t) = [] := by
    intro t
    unfold labelPart
    split
    · cases t with
      | none => rfl
      | some t => simp only; split <;> rfl
    · rfl
  unfold draw
  rw [if_pos hen]
  unfold updateDisplays
  rw [if_neg ht]
  simp only [previews_append, hp]
  rw [hq]
  unfold textPart
  rw [hres, hs.2.2.1, hb]
  simp only [hlb, hlr, hs.2.2.2.1, hc]
  by_cases h : st.lastBpm = some b
  · simp [h, hlb, hlr, previews]
  · simp only [h, ne_eq, not_false_eq_true, if_true, List.nil_append, true_and]
    split <;> rfl

end C82

/-- C82. After any history, with each value coming in while the action is enabled and the tuner is not active, the LEDs follow the
last pulse value: bright if it is greater than zero, off otherwise. -/
theorem C82_leds (c : Tempo.Config) (hne : ∀ s, c.text s ≠ "") (es : List Event) (e : Event) (hv : e.isValue c = true)
    (hen : isEnabled (es ++ [e]) = true) (ht : lastTuner (es ++ [e]) ≠ some 1) (v : Nat) (hp : lastPulse (es ++ [e]) = some v) :
    leds (run c {} (es ++ [e])).1.flatten = some (decide (v > 0)) := by
  obtain ⟨k, i⟩ := C82.inv c hne (es ++ [e])
  rw [i.led]
  obtain ⟨r1, r2⟩ := C82.run_snoc c es e
  obtain ⟨s, h1, h2, h3⟩ := C82.value_draw c (run c {} es).2 e hv
  rw [r2, h1] at k ⊢
  have same := C82.draw_same c s
  have i0 := (C82.inv c hne es).2
  have := ((C82.draw_inv c hne (run c {} es).1.flatten s ⟨by rw [h2]; exact i0.led, by rw [h3]; exact i0.text⟩).2
    (by rw [← same.2.2.2.2.1, k.enabled]; exact hen) (by rw [← same.2.1, k.tuner]; exact ht)).1 v (by rw [← same.1, k.pulse]; exact hp)
  rw [this]
  rfl

/-- An example configuration. -/
def exTempo : Tempo.Config := { change := true, text := fun b => b ++ " bpm" }

example : leds (run exTempo {} ([.bpm (some 7680), .tuner (some 1), .pulse (some 1)] ++ [.tuner (some 0)])).1.flatten = some true := by decide +kernel

/-- C82. In the same way, the label shows the last tempo. -/
theorem C82_label_partial (c : Tempo.Config) (hne : ∀ s, c.text s ≠ "") (hl : c.label = true) (es : List Event) (e : Event)
    (hv : e.isValue c = true) (hen : isEnabled (es ++ [e]) = true) (ht : lastTuner (es ++ [e]) ≠ some 1) (b : Nat)
    (hp : lastTempo (es ++ [e]) = some b) :
    label (run c {} (es ++ [e])).1.flatten = some (c.text (LabelText.convertBpm b)) := by
  have hres : c.resolve = true := by simp [Config.resolve, hl]
  obtain ⟨k, i⟩ := C82.inv c hne (es ++ [e])
  rw [i.text hl]
  obtain ⟨r1, r2⟩ := C82.run_snoc c es e
  obtain ⟨s, h1, h2, h3⟩ := C82.value_draw c (run c {} es).2 e hv
  rw [r2, h1] at k ⊢
  have same := C82.draw_same c s
  have i0 := (C82.inv c hne es).2
  have := ((C82.draw_inv c hne (run c {} es).1.flatten s ⟨by rw [h2]; exact i0.led, by rw [h3]; exact i0.text⟩).2
    (by rw [← same.2.2.2.2.1, k.enabled]; exact hen) (by rw [← same.2.1, k.tuner]; exact ht)).2 b hres
    (by rw [← same.2.2.1, k.bpm hres]; exact hp)
  rw [this]
  rfl

example : label (run exTempo {} ([.bpm (some 7680), .tuner (some 1), .bpm (some 7744)] ++ [.tuner none])).1.flatten = some "121 bpm" := by
  decide +kernel

/-- C82. While the tuner is active, or the action is disabled, nothing is changed. -/
theorem C82_quiet (c : Tempo.Config) (hne : ∀ s, c.text s ≠ "") (es : List Event) (e : Event)
    (h : lastTuner (es ++ [e]) = some 1 ∨ isEnabled (es ++ [e]) = false) : (step c (run c {} es).2 e).2 = [] := by
  have k := (C82.inv c hne (es ++ [e])).1
  rw [(C82.run_snoc c es e).2] at k
  have quiet : ∀ s, (step c (run c {} es).2 e) = draw c s → (draw c s).2 = [] := by
    intro s hs
    rw [hs] at k
    have same := C82.draw_same c s
    unfold draw
    split
    · next hen =>
      unfold updateDisplays
      split
      · rfl
      · next htu =>
        rcases h with h | h
        · exact absurd (by rw [← same.2.1, k.tuner, h]) htu
        · rw [← same.2.2.2.2.1, k.enabled, h] at hen; simp at hen
    · rfl
  cases e with
  | pulse v => exact quiet _ rfl
  | tuner v => exact quiet _ rfl
  | bpm v =>
    by_cases hc : c.resolve = true
    · have := quiet { (run c {} es).2 with bpm := v } (by simp [step, hc])
      simpa [step, hc] using this
    · simp [step, hc]
  | rig v =>
    by_cases hc : c.change = true
    · have := quiet { (run c {} es).2 with rig := v } (by simp [step, hc])
      simpa [step, hc] using this
    · simp [step, hc]
  | enable b => rfl
  | reset => rfl
  | tick =>
    by_cases hc : (run c {} es).2.lastEnabled ≠ some (run c {} es).2.enabled
    · have := quiet { (run c {} es).2 with lastEnabled := some (run c {} es).2.enabled } (by simp [step, hc])
      simpa [step, hc] using this
    · simp [step, hc]

/-- C82. Changes of the tempo are shown in the change display, except for those which come with another rig: after the tempo has
been changed to `b` in rig `r`, a tempo `b'` received for rig `r'` is shown exactly if the rig is the same. -/
theorem C82_preview_partial (c : Tempo.Config) (hne : ∀ s, c.text s ≠ "") (hc : c.change = true) (es : List Event) (hen : isEnabled es = true)
    (ht : lastTuner es ≠ some 1) (r r' : Option Nat) (b₀ b b' : Nat) (h0 : b₀ ≠ b) (h1 : b ≠ b') :
    previews (step c (run c {} (es ++ [.rig r, .bpm (some b₀), .bpm (some b), .rig r'])).2 (.bpm (some b'))).2 =
      if r' = r then [c.text (LabelText.convertBpm b')] else [] := by
  have hres : c.resolve = true := by simp [Config.resolve, hc]
  have k := (C82.inv c hne es).1
  rw [C82.run_append]
  generalize (run c {} es).2 = st at k
  have e1 : st.enabled = true := by rw [k.enabled, hen]
  have e2 : st.tuner ≠ some 1 := by rw [k.tuner]; exact ht
  simp only [run, step, hc, hres, if_true]
  -- rig
  have s1 := C82.draw_same c { st with rig := r }
  generalize (draw c { st with rig := r }).1 = st1 at s1
  obtain ⟨-, t1, -, g1, n1, -⟩ := s1
  simp only at t1 g1 n1
  -- first tempo
  have s2 := C82.draw_same c { st1 with bpm := some b₀ }
  have p2 := C82.draw_preview c hc { st1 with bpm := some b₀ } (n1.trans e1) (by rw [show (State.tuner _) = st.tuner from t1]; exact e2) b₀ rfl
  generalize (draw c { st1 with bpm := some b₀ }).1 = st2 at s2 p2
  obtain ⟨-, t2, -, g2, n2, -⟩ := s2
  simp only at t2 g2 n2
  -- second tempo
  have s3 := C82.draw_same c { st2 with bpm := some b }
  have p3 := C82.draw_preview c hc { st2 with bpm := some b } ((n2.trans n1).trans e1)
    (by rw [show (State.tuner _) = st.tuner from t2.trans t1]; exact e2) b rfl
  generalize (draw c { st2 with bpm := some b }).1 = st3 at s3 p3
  obtain ⟨-, t3, b3, g3, n3, -⟩ := s3
  simp only at t3 b3 g3 n3 p3
  rw [if_pos (by rw [p2.1]; simpa using h0)] at p3
  -- rig
  have s4 := C82.draw_same c { st3 with rig := r' }
  have p4 := C82.draw_preview c hc { st3 with rig := r' } (((n3.trans n2).trans n1).trans e1)
    (by rw [show (State.tuner _) = st.tuner from (t3.trans t2).trans t1]; exact e2) b b3
  generalize (draw c { st3 with rig := r' }).1 = st4 at s4 p4
  obtain ⟨-, t4, -, g4, n4, -⟩ := s4
  simp only at t4 g4 n4 p4
  -- third tempo
  have p5 := C82.draw_preview c hc { st4 with bpm := some b' } ((((n4.trans n3).trans n2).trans n1).trans e1)
    (by rw [show (State.tuner _) = st.tuner from ((t4.trans t3).trans t2).trans t1]; exact e2) b' rfl
  rw [p5.2.2]
  simp only [p4.1, p4.2.1, p3.1, p3.2.1, g4, g2, g1, ne_eq, Option.some.injEq, h1, not_false_eq_true, not_true_eq_false, if_false,
    true_and, reduceCtorEq]

example : previews (step exTempo (run exTempo {} ([.pulse (some 1)] ++ [.rig (some 3), .bpm (some 6400), .bpm (some 7680), .rig (some 3)])).2
    (.bpm (some 7744))).2 = ["121 bpm"] := by decide +kernel

/-- C82, disagreement: after a change to a rig with the same tempo, the first change of the tempo is not shown in the change
display, although it is made in that rig. -/
theorem C82_missed : previews (run exTempo {} [.rig (some 3), .bpm (some 6400), .bpm (some 7680), .rig (some 4), .bpm (some 7680),
    .pulse (some 1), .bpm (some 7744)]).1.flatten = ["120 bpm"] := by decide +kernel

/-- C82, disagreement: when the page of the action is shown again (or the action is reset, for example after tuner mode), the text is
not set again, so a label used by other pages keeps their text as long as the tempo stays the same. -/
theorem C82_page (c : Tempo.Config) (es : List Event) (b : Nat) (hen : (run c {} es).2.enabled = true)
    (ht : (run c {} es).2.tuner ≠ some 1) (hl : c.label = true) (ks : List Event) (hk : ∀ v, Event.bpm (some v) ∈ ks → v = b) :
    label (run c (run c {} (es ++ [.bpm (some b)])).2 ks).1.flatten = none := by
  have hres : c.resolve = true := by simp [Config.resolve, hl]
  have h0 : (run c {} (es ++ [.bpm (some b)])).2.lastBpm = some b ∧ (run c {} (es ++ [.bpm (some b)])).2.bpm = some b := by
    rw [C82.run_append]
    generalize (run c {} es).2 = st at hen ht
    simp only [run, step, hres, if_true]
    have s2 := C82.draw_same c { st with bpm := some b }
    refine ⟨?_, s2.2.2.1⟩
    simp only [draw, hen, if_true, updateDisplays]
    rw [if_neg ht]
    unfold textPart
    rw [hres, (C82.ledPart_same _).1.2.2.1]
    simp only
    split
    · rfl
    · next h => simpa using h
  generalize (run c {} (es ++ [.bpm (some b)])).2 = st at h0
  have hd : ∀ st : Tempo.State, st.lastBpm = some b → (st.bpm = some b ∨ st.bpm = none) →
      (∀ x, (draw c st).2.foldl textAfter x = x) ∧ (draw c st).1.lastBpm = some b ∧ ((draw c st).1.bpm = some b ∨ (draw c st).1.bpm = none) := by
    intro st h1 h2
    have s2 := C82.draw_same c st
    refine ⟨?_, ?_, by rw [s2.2.2.1]; exact h2⟩
    · intro x
      unfold draw
      split
      · unfold updateDisplays
        split
        · rfl
        · have ht : textPart c (ledPart st).1 = ((ledPart st).1, none, []) := by
            unfold textPart
            rw [hres, (C82.ledPart_same _).1.2.2.1, (C82.ledPart_same _).2.1, h1]
            rcases h2 with h2 | h2 <;> rw [h2] <;> simp
          simp only [ht, labelPart, hl, if_true, List.foldl_append, List.append_nil]
          have : (ledPart st).2.foldl textAfter x = x := by
            unfold ledPart
            split
            · rfl
            · split <;> rfl
          rw [this]
          rfl
      · rfl
    · unfold draw
      split
      · unfold updateDisplays
        split
        · exact h1
        · simp only
          unfold textPart
          rw [hres, (C82.ledPart_same _).1.2.2.1, (C82.ledPart_same _).2.1, h1]
          rcases h2 with h2 | h2 <;> rw [h2] <;> simp [(C82.ledPart_same _).2.1, h1]
      · exact h1
  have key : ∀ (ks : List Event), (∀ v, Event.bpm (some v) ∈ ks → v = b) → ∀ (st : Tempo.State), st.lastBpm = some b →
      (st.bpm = some b ∨ st.bpm = none) → ∀ x, (run c st ks).1.flatten.foldl textAfter x = x := by
    intro ks
    induction ks with
    | nil => intro _ st _ _ x; rfl
    | cons k ks ih =>
      intro hk st h1 h2 x
      have hk' : ∀ v, Event.bpm (some v) ∈ ks → v = b := fun v hv => hk v (List.mem_cons_of_mem _ hv)
      simp only [run, List.flatten_cons, List.foldl_append]
      have hst : (∀ x, (step c st k).2.foldl textAfter x = x) ∧ (step c st k).1.lastBpm = some b ∧
          ((step c st k).1.bpm = some b ∨ (step c st k).1.bpm = none) := by
        cases k with
        | pulse v => exact hd { st with pulse := v } h1 h2
        | tuner v => exact hd { st with tuner := v } h1 h2
        | bpm v =>
          simp only [step, hres, if_true]
          refine hd { st with bpm := v } h1 ?_
          cases v with
          | none => exact .inr rfl
          | some v => rw [hk v (by simp)]; exact .inl rfl
        | rig v =>
          simp only [step]
          split
          · exact hd { st with rig := v } h1 h2
          · exact ⟨fun _ => rfl, h1, h2⟩
        | enable v => exact ⟨fun _ => rfl, h1, h2⟩
        | reset => exact ⟨fun _ => rfl, h1, h2⟩
        | tick =>
          simp only [step]
          split
          · exact hd { st with lastEnabled := some st.enabled } h1 h2
          · exact ⟨fun _ => rfl, h1, h2⟩
      rw [hst.1]
      exact ih hk' _ hst.2.1 hst.2.2 x
  exact key ks hk st h0.1 (.inl h0.2) none

example : label (run exTempo (run exTempo {} ([] ++ [.bpm (some 7680)])).2 [.enable false, .tick, .enable true, .tick, .reset,
    .bpm (some 7680), .pulse (some 1)]).1.flatten = none := by decide +kernel

end PySwitch.Props
