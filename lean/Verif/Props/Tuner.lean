import Verif.Lemmas.Tuner
import Verif.Spec.Tuner
import Verif.Spec.Layout
/-
Properties of the tuner: C56 (display), C57 (strobe), C62 (switches in tuner mode).
-/
namespace PySwitch.Props
open PySwitch PySwitch.Tuner PySwitch.Layout

/-! ### C56 -/

private theorem castNonneg {a : Int} (h : 0 ≤ a) : (0 : Rat) ≤ (a : Rat) := Rat.intCast_nonneg.2 h

/-- C56, except for the value -1 produced by the zoom at the lower end: for each deviance value, the marker is inside the
deviance bar. The exception does not matter for a display starting at the left edge of the screen. -/
theorem C56_inside_partial (c : DisplayConfig) (hw1 : c.width ≤ c.bounds.width)
    (v : Int) (h0 : 0 ≤ v) (h1 : v ≤ 16383)
    (hex : c.zoom = 1 ∨ 0 ≤ c.scaled v ∨ (c.bounds.x = 0 ∧ c.bounds.width - c.width < 16384)) :
    c.bounds.x ≤ c.markerX v ∧ c.markerX v + c.width ≤ c.bounds.x + c.bounds.width := by
  obtain ⟨s0, s1, s2⟩ := scaled_range c v h0 h1
  have hn : (0 : Rat) < 16384 := by decide +kernel
  have ha : (0 : Rat) ≤ ((c.bounds.width - c.width : Int) : Rat) := castNonneg (show 0 ≤ c.bounds.width - c.width by omega)
  have hs : ((c.scaled v : Int) : Rat) ≤ 16384 := by
    have : ((c.scaled v : Int) : Rat) ≤ ((16384 : Int) : Rat) := Rat.intCast_le_intCast.2 (show c.scaled v ≤ 16384 by omega)
    exact this
  have hup := mul_div_le ha hn hs
  have upper : c.markerX v ≤ c.bounds.x + (c.bounds.width - c.width) := by
    apply pyInt_le_of_le
    push_cast at hup ⊢
    grind
  refine ⟨?_, by omega⟩
  by_cases hsc : 0 ≤ c.scaled v
  · apply le_pyInt_of_le
    have : (0 : Rat) ≤ ((c.bounds.width - c.width : Int) : Rat) * (c.scaled v : Rat) / 16384 :=
      rat_div_nonneg hn (Rat.mul_nonneg ha (castNonneg hsc))
    grind
  · rcases hex with hz | hz | ⟨hx0, hd⟩
    · exact absurd (s2 hz) hsc
    · exact absurd hz hsc
    · have hm1 : c.scaled v = -1 := by omega
      have hgt : (-1 : Rat) < ((c.bounds.width - c.width : Int) : Rat) * (c.scaled v : Rat) / 16384 := by
        rw [hm1]
        have : ((c.bounds.width - c.width : Int) : Rat) < ((16384 : Int) : Rat) := Rat.intCast_lt_intCast.2 hd
        have e : ((c.bounds.width - c.width : Int) : Rat) * ((-1 : Int) : Rat) / 16384 = -(((c.bounds.width - c.width : Int) : Rat) / 16384) := by
          have : ((-1 : Int) : Rat) = -1 := rfl
          rw [this, Rat.div_def, Rat.div_def, Rat.mul_neg, Rat.mul_one, Rat.neg_mul]
        rw [e]
        have h2 : ((c.bounds.width - c.width : Int) : Rat) / 16384 < 1 := by
          rw [Rat.div_lt_iff hn, Rat.one_mul]; exact this
        grind
      have hnear := (pyInt_near ((c.bounds.x : Rat) + ((c.bounds.width - c.width : Int) : Rat) * (c.scaled v : Rat) / 16384)).2
      rw [hx0]
      by_cases hneg : (0 : Rat) ≤ ((c.bounds.width - c.width : Int) : Rat) * (c.scaled v : Rat) / 16384
      · apply le_pyInt_of_le
        rw [hx0]
        grind
      · have hx0r : (c.bounds.x : Rat) = 0 := by rw [hx0]; rfl
        unfold DisplayConfig.markerX
        rw [(pyInt_le_iff_floor _).2 (by rw [hx0r]; grind)]
        have hf : (-((c.bounds.x : Rat) + ((c.bounds.width - c.width : Int) : Rat) * (c.scaled v : Rat) / 16384)).floor < 1 := by
          rw [Rat.floor_lt_iff, hx0r]
          have : ((1 : Int) : Rat) = 1 := rfl
          rw [this]
          grind
        omega

/-- C56. In the remaining cases the marker exceeds the area by at most one pixel, on the left side. -/
theorem C56_near (c : DisplayConfig) (hw1 : c.width ≤ c.bounds.width) (hd : c.bounds.width - c.width ≤ 16384)
    (v : Int) (h0 : 0 ≤ v) (h1 : v ≤ 16383) : c.bounds.x - 1 ≤ c.markerX v := by
  obtain ⟨s0, s1, s2⟩ := scaled_range c v h0 h1
  have hn : (0 : Rat) < 16384 := by decide +kernel
  have ha : (0 : Rat) ≤ ((c.bounds.width - c.width : Int) : Rat) := castNonneg (show 0 ≤ c.bounds.width - c.width by omega)
  have hs : (-1 : Rat) ≤ ((c.scaled v : Int) : Rat) := by
    have : ((-1 : Int) : Rat) ≤ ((c.scaled v : Int) : Rat) := Rat.intCast_le_intCast.2 s0
    exact this
  have h2 := mul_div_mono ha hn hs
  have h3 : ((c.bounds.width - c.width : Int) : Rat) / 16384 ≤ 1 := by
    have : ((c.bounds.width - c.width : Int) : Rat) ≤ ((16384 : Int) : Rat) := Rat.intCast_le_intCast.2 hd
    have := rat_div_le_div hn this
    have e : ((16384 : Int) : Rat) / 16384 = 1 := by decide +kernel
    rwa [e] at this
  have e : ((c.bounds.width - c.width : Int) : Rat) * (-1) / 16384 = -(((c.bounds.width - c.width : Int) : Rat) / 16384) := by
    rw [Rat.div_def, Rat.div_def, Rat.mul_neg, Rat.mul_one, Rat.neg_mul]
  rw [e] at h2
  apply le_pyInt_of_le
  push_cast at h2 h3 ⊢
  grind

/-- C56. A tuner display which does not start at the left edge: with the default zoom, the marker leaves it for low notes. -/
theorem C56_outside : ({ bounds := ⟨10, 0, 220, 40⟩ } : DisplayConfig).markerX 4000 = 9 := by decide +kernel

/-- C56. A higher pitch is never shown further left. -/
theorem C56_monotone (c : DisplayConfig) (hw1 : c.width ≤ c.bounds.width) (hz : 0 ≤ c.zoom) (v v' : Int) (h : v ≤ v') :
    c.markerX v ≤ c.markerX v' := by
  have hn : (0 : Rat) < 16384 := by decide +kernel
  have ha : (0 : Rat) ≤ ((c.bounds.width - c.width : Int) : Rat) := castNonneg (show 0 ≤ c.bounds.width - c.width by omega)
  have hs : c.scaled v ≤ c.scaled v' := by
    unfold DisplayConfig.scaled
    by_cases hz1 : c.zoom = 1
    · simp [hz1, h]
    · simp only [ne_eq, hz1, not_false_eq_true, if_true]
      have h1 : ((v - 8192 : Int) : Rat) ≤ ((v' - 8192 : Int) : Rat) := Rat.intCast_le_intCast.2 (show v - 8192 ≤ v' - 8192 by omega)
      have := pyInt_monotone (Rat.mul_le_mul_of_nonneg_right h1 hz)
      omega
  apply pyInt_monotone
  have := mul_div_mono ha hn (show ((c.scaled v : Int) : Rat) ≤ ((c.scaled v' : Int) : Rat) from Rat.intCast_le_intCast.2 hs)
  grind

/-- C56. The exact pitch is shown at the fixed marker in the middle, at most one pixel beside it. -/
theorem C56_center (c : DisplayConfig) (hw1 : c.width ≤ c.bounds.width) (hd : c.bounds.width - c.width < 16384) :
    c.centerX - 1 ≤ c.markerX 8192 ∧ c.markerX 8192 ≤ c.centerX ∧ (c.zoom = 1 → c.markerX 8192 = c.centerX) := by
  have hn : (0 : Rat) < 16384 := by decide +kernel
  have ha : (0 : Rat) ≤ ((c.bounds.width - c.width : Int) : Rat) := castNonneg (show 0 ≤ c.bounds.width - c.width by omega)
  have h3 : ((c.bounds.width - c.width : Int) : Rat) < 16384 := by
    have : ((c.bounds.width - c.width : Int) : Rat) < ((16384 : Int) : Rat) := Rat.intCast_lt_intCast.2 hd
    exact this
  unfold DisplayConfig.markerX DisplayConfig.centerX
  generalize ((c.bounds.width - c.width : Int) : Rat) = a at *
  by_cases hz : c.zoom = 1
  · have e : c.scaled 8192 = 8192 := by simp [DisplayConfig.scaled, hz]
    have e2 : a * ((8192 : Int) : Rat) / 16384 = a * (1 / 2) := by
      rw [Rat.div_def, Rat.mul_assoc]
      have : ((8192 : Int) : Rat) * (16384 : Rat)⁻¹ = 1 / 2 := by decide +kernel
      rw [this]
    rw [e, e2]
    exact ⟨by omega, by omega, fun _ => rfl⟩
  · have e : c.scaled 8192 = 8191 := by
      have e0 : pyInt 0 = 0 := pyInt_intCast 0
      simp only [DisplayConfig.scaled, ne_eq, hz, not_false_eq_true, if_true]
      have : ((8192 - 8192 : Int) : Rat) * c.zoom = 0 := by
        have : ((8192 - 8192 : Int) : Rat) = 0 := rfl
        rw [this, Rat.zero_mul]
      rw [this, e0]
      rfl
    rw [e]
    have e2 : a * ((8191 : Int) : Rat) / 16384 = a * (1 / 2) - a / 16384 := by
      rw [Rat.div_def, Rat.mul_assoc]
      have : ((8191 : Int) : Rat) * (16384 : Rat)⁻¹ = 1 / 2 - (16384 : Rat)⁻¹ := by decide +kernel
      rw [this]
      generalize hq : (16384 : Rat)⁻¹ = q
      rw [Rat.div_def a, hq]
      grind
    rw [e2]
    have l0 : 0 ≤ a / 16384 := rat_div_nonneg hn ha
    have l1 : a / 16384 < 1 := by rw [Rat.div_lt_iff hn, Rat.one_mul]; exact h3
    refine ⟨?_, pyInt_monotone (by grind), fun h => absurd h hz⟩
    have h1 : pyInt ((c.bounds.x : Rat) + a * (1 / 2)) - 1 ≤ pyInt ((c.bounds.x : Rat) + (a * (1 / 2) - a / 16384)) := by
      generalize hy : (c.bounds.x : Rat) + a * (1 / 2) = y
      have hz : (c.bounds.x : Rat) + (a * (1 / 2) - a / 16384) = y - a / 16384 := by grind
      rw [hz]
      have hmono : pyInt (y - 1) ≤ pyInt (y - a / 16384) := pyInt_monotone (by grind)
      have hstep : pyInt y - 1 ≤ pyInt (y - 1) := by
        by_cases hy0 : 0 ≤ y
        · by_cases hy1 : 0 ≤ y - 1
          · rw [pyInt_of_nonneg hy0, pyInt_of_nonneg hy1]
            have : y.floor - 1 ≤ (y - 1).floor := by
              rw [Rat.le_floor_iff]
              have := Rat.floor_le (a := y)
              push_cast
              grind
            exact this
          · have hlt : pyInt y < 1 := by
              rw [pyInt_of_nonneg hy0, Rat.floor_lt_iff]
              have : ((1 : Int) : Rat) = 1 := rfl
              rw [this]; grind
            have : pyInt (y - 1) > -2 := by
              have := (pyInt_near (y - 1)).2
              have h' : ((-2 : Int) : Rat) < (pyInt (y - 1) : Rat) := by
                have : ((-2 : Int) : Rat) = -2 := rfl
                rw [this]; grind
              exact_mod_cast h'
            have hnn := pyInt_nonneg hy0
            omega
        · rw [(pyInt_le_iff_floor y).2 (by grind), (pyInt_le_iff_floor (y - 1)).2 (by grind)]
          have : (-(y - 1)).floor ≤ (-y).floor + 1 := by
            have h1 := Rat.lt_floor (x := -y)
            have h2 : (-(y - 1)).floor < (-y).floor + 2 := by
              rw [Rat.floor_lt_iff]
              push_cast
              grind
            omega
          omega
      omega
    exact h1

/-- C56, once a value other than the exact pitch has been received: the display shows the last value received, and "in tune"
exactly if it is between the limits. -/
theorem C56_in_tune_partial (c : DisplayConfig) (es : List DisplayEvent) (hr : .reset ∉ es)
    (hx : ∃ v, DisplayEvent.deviance v ∈ es ∧ v ≠ 8192) :
    ∃ v, lastDeviance es = some v ∧ Shows c v (c.run es) := by
  -- Over all histories: either nothing but the exact pitch has been received, or the last value is shown
  have key : ∀ (es : List DisplayEvent) (st : DisplayState), .reset ∉ es →
      (st.lastDeviance = 8192 ∨ Shows c st.lastDeviance st) →
      ((∃ v, DisplayEvent.deviance v ∈ es ∧ v ≠ st.lastDeviance) ∨ Shows c st.lastDeviance st →
        Shows c (es.foldl c.step st).lastDeviance (es.foldl c.step st)) ∧
      (es.foldl c.step st).lastDeviance = (lastDeviance es).getD st.lastDeviance := by
    intro es
    induction es with
    | nil => intro st _ h; exact ⟨fun h' => h'.elim (fun ⟨v, hv, _⟩ => by simp at hv) id, rfl⟩
    | cons e es ih =>
      intro st hres h
      have hres' : .reset ∉ es := fun hm => hres (by simp [hm])
      cases e with
      | reset => exact absurd (by simp) hres
      | note v =>
        have hsame : (c.step st (.note v)).lastDeviance = st.lastDeviance ∧
            (Shows c st.lastDeviance (c.step st (.note v)) ↔ Shows c st.lastDeviance st) := by
          simp only [DisplayConfig.step]
          by_cases hv : some v ≠ st.lastNote
          · rw [if_pos hv]
            exact ⟨rfl, ⟨fun h => ⟨h.1, h.2, h.3, h.4⟩, fun h => ⟨h.1, h.2, h.3, h.4⟩⟩⟩
          · rw [if_neg hv]; exact ⟨rfl, Iff.rfl⟩
        have hih := ih (c.step st (.note v)) hres' (by rw [hsame.1, hsame.2]; exact h)
        rw [hsame.1, hsame.2] at hih
        refine ⟨fun hor => hih.1 ?_, hih.2⟩
        rcases hor with ⟨w, hw, hne⟩ | hs
        · simp only [List.mem_cons, reduceCtorEq, false_or] at hw
          exact .inl ⟨w, hw, hne⟩
        · exact .inr hs
      | deviance v =>
        by_cases hv : v ≠ st.lastDeviance
        · have hshow : (c.step st (.deviance v)).lastDeviance = v ∧ Shows c v (c.step st (.deviance v)) := by
            simp only [DisplayConfig.step, if_pos hv, DisplayConfig.setDeviance]
            refine ⟨trivial, ⟨rfl, ?_, ?_, ?_⟩⟩
            · simp
            · simp
            · simp
          have hih := ih (c.step st (.deviance v)) hres' (by rw [hshow.1]; exact .inr hshow.2)
          rw [hshow.1] at hih
          refine ⟨fun _ => hih.1 (.inr hshow.2), ?_⟩
          rw [List.foldl_cons, hih.2]
          simp [lastDeviance]
        · have hsame : c.step st (.deviance v) = st := by simp only [DisplayConfig.step, if_neg hv]
          have hve : v = st.lastDeviance := by omega
          have hih := ih st hres' h
          rw [List.foldl_cons, hsame]
          refine ⟨fun hor => hih.1 ?_, ?_⟩
          · rcases hor with ⟨w, hw, hne⟩ | hs
            · simp only [List.mem_cons, DisplayEvent.deviance.injEq] at hw
              rcases hw with rfl | hw
              · exact absurd hve hne
              · exact .inl ⟨w, hw, hne⟩
            · exact .inr hs
          · rw [hih.2]; simp [lastDeviance, hve]
  obtain ⟨v, hv, hne⟩ := hx
  have h := key es c.initial hr (.inl rfl)
  have hs := h.1 (.inl ⟨v, hv, hne⟩)
  have hsome : ∃ w, lastDeviance es = some w := by
    clear h hs hr hne
    induction es with
    | nil => simp at hv
    | cons e es ih =>
      cases e with
      | deviance w => exact ⟨_, rfl⟩
      | note w =>
        simp only [List.mem_cons, reduceCtorEq, false_or] at hv
        exact ih hv
      | reset =>
        simp only [List.mem_cons, reduceCtorEq, false_or] at hv
        exact ih hv
  obtain ⟨w, hw⟩ := hsome
  refine ⟨w, hw, ?_⟩
  have e : (es.foldl c.step c.initial).lastDeviance = w := by rw [h.2, hw]; rfl
  rw [← e]
  exact hs

/-- C56. If the exact pitch is the first value, it is not shown as "in tune": nothing happens, because the display starts
with this value stored. After a reset, even the marker stays where it was. -/
theorem C56_exact_first :
    let c : DisplayConfig := { bounds := ⟨0, 200, 240, 40⟩ }
    (c.run [.note 4, .deviance 8192]).isInTune = false ∧ (c.run [.note 4, .deviance 8192]).noteColor = none ∧
    (c.run [.deviance 9000, .reset, .deviance 8192]).markerX = c.markerX 9000 ∧
    c.markerX 9000 ≠ c.markerX 8192 ∧
    (c.run [.deviance 9000, .reset, .deviance 8192]).noteColor = some c.neutral := by decide +kernel

/-- C56. For each note value the note shown is the one of the twelve names belonging to it, until the next note arrives or
the display is reset. -/
theorem C56_note (c : DisplayConfig) (hn : c.names.length = 12) (pre post : List DisplayEvent) (v : Int)
    (hpost : ∀ e ∈ post, ∃ d, e = .deviance d) :
    ∃ name, c.names[(v % 12).toNat]? = some name ∧ (c.run (pre ++ [.note v] ++ post)).noteText = name := by
  have hlt : (v % 12).toNat < c.names.length := by
    have h0 := Int.emod_nonneg v (show (12 : Int) ≠ 0 by omega)
    have h1 := Int.emod_lt_of_pos v (show (0 : Int) < 12 by omega)
    omega
  have hg : c.names[(v % 12).toNat]? = some c.names[(v % 12).toNat] := List.getElem?_eq_getElem hlt
  refine ⟨_, hg, ?_⟩
  -- The text belongs to the stored note
  have inv : ∀ (es : List DisplayEvent) (st : DisplayState),
      (∀ n, st.lastNote = some n → st.noteText = (c.names[(n % 12).toNat]?).getD "") →
      (∀ n, (es.foldl c.step st).lastNote = some n → (es.foldl c.step st).noteText = (c.names[(n % 12).toNat]?).getD "") := by
    intro es
    induction es with
    | nil => intro st h; exact h
    | cons e es ih =>
      intro st h
      apply ih
      cases e with
      | note w =>
        simp only [DisplayConfig.step]
        by_cases hw : some w ≠ st.lastNote
        · rw [if_pos hw]; intro n hn; simp only [Option.some.injEq] at hn; rw [← hn]
        · rw [if_neg hw]; exact h
      | deviance w =>
        simp only [DisplayConfig.step]
        by_cases hw : w ≠ st.lastDeviance
        · rw [if_pos hw]; exact h
        · rw [if_neg hw]; exact h
      | reset => intro n hn; simp [DisplayConfig.step] at hn
  have hpre := inv pre c.initial (by intro n hn; simp [DisplayConfig.initial] at hn)
  have hnote : (c.step (c.run pre) (.note v)).noteText = c.names[(v % 12).toNat] := by
    simp only [DisplayConfig.step]
    by_cases hw : some v ≠ (c.run pre).lastNote
    · rw [if_pos hw]; simp [hg]
    · rw [if_neg hw]
      have := hpre v (by simpa [DisplayConfig.run] using (Classical.not_not.1 hw).symm)
      rw [hg] at this
      exact this
  have hrest : ∀ (es : List DisplayEvent) (st : DisplayState), (∀ e ∈ es, ∃ d, e = .deviance d) →
      (es.foldl c.step st).noteText = st.noteText := by
    intro es
    induction es with
    | nil => intro st _; rfl
    | cons e es ih =>
      intro st h
      rw [List.foldl_cons, ih _ (fun x hx => h x (by simp [hx]))]
      obtain ⟨d, rfl⟩ := h e (by simp)
      simp only [DisplayConfig.step]
      by_cases hw : d ≠ st.lastDeviance
      · rw [if_pos hw]; rfl
      · rw [if_neg hw]
  unfold DisplayConfig.run
  rw [List.foldl_append, List.foldl_append, hrest post _ hpost]
  exact hnote

example : let c : DisplayConfig := { bounds := ⟨0, 200, 240, 40⟩ }
    0 ≤ c.width ∧ c.width ≤ c.bounds.width ∧ c.bounds.x = 0 ∧ c.markerX 0 = 0 ∧ c.markerX 16383 = 234 ∧ c.markerX 8192 = 117 ∧
    (c.run [.note 52, .deviance 8000, .deviance 8192]).isInTune = true ∧
    (c.run [.note 52, .deviance 8000, .deviance 8192]).noteText = "E" := by decide +kernel

/-! ### C57 -/

/-- C57. The loops bringing the position into range end for every positive speed and every position, with a position in
[-speed, speed] which is the same up to full turns. -/
theorem C57_terminates (speed : Int) (hs : 0 < speed) (pos : Int) :
    ∃ n r, loops speed n pos = some r ∧ normalize speed pos = r ∧ -speed ≤ r ∧ r ≤ speed ∧ r % speed = pos % speed := by
  obtain ⟨r, e, a, b, m⟩ := loops_spec speed hs (pos.natAbs + 1) pos (by omega)
  exact ⟨_, r, e, by unfold normalize; rw [e]; rfl, a, b, m⟩

/-- C57. With a speed of zero the program hangs as soon as the note is not exactly in tune. -/
theorem C57_endless (pos : Int) (hp : pos ≠ 0) (n : Nat) : loops 0 n pos = none := by
  induction n with
  | zero => rfl
  | succ n ih =>
    unfold loops
    by_cases h : pos > 0
    · rw [if_pos h, Int.sub_zero]; exact ih
    · rw [if_neg h, if_pos (by omega), Int.add_zero]; exact ih

/-- C57. The brightness of each switch is always between zero and the dim factor. -/
theorem C57_valid (c : StrobeConfig) (hs : 0 < c.speed) (hw : 0 < c.width) (hd : 0 ≤ c.dim) (pos : Int) (k : Nat)
    (hk : k < c.count) : 0 ≤ c.brightness pos k ∧ c.brightness pos k ≤ c.dim :=
  brightness_range c hs hw hd pos k hk

/-- C57. The positions of the switches before they are brought into [0, 1] are less than one turn outside. -/
theorem C57_phase (c : StrobeConfig) (hs : 0 < c.speed) (pos : Int) (k : Nat) (hk : k < c.count) :
    0 ≤ c.phase pos + (k : Rat) / (c.count : Rat) ∧ c.phase pos + (k : Rat) / (c.count : Rat) < 2 :=
  place_bounds c hs pos k hk

/-- C57. Light and dark: a switch at the position of the highlight has full brightness, a switch away from it by more than the
width is off. -/
theorem C57_highlight (c : StrobeConfig) (hw : 0 < c.width) (pos : Int) (k : Nat) :
    (c.place pos k = 0 → c.brightness pos k = c.dim) ∧
    (c.width < c.place pos k → c.place pos k < 1 - c.width → c.brightness pos k = 0) := by
  unfold StrobeConfig.brightness
  constructor
  · intro hp
    rw [hp]
    have e : glow 0 c.width = 1 := by
      unfold glow
      rw [if_pos (by grind), Rat.zero_mul]
      grind
    have e2 : pyInt (1 * 16) = 16 := by decide +kernel
    rw [e, e2]
    have e3 : ((16 : Int) : Rat) / 16 = 1 := by decide +kernel
    simp only [e3, Rat.one_mul]
  · intro h1 h2
    have e : glow (c.place pos k) c.width = 0 := by
      unfold glow
      rw [if_neg (by grind), if_neg (by grind)]
    have e2 : pyInt (0 * 16) = 0 := by decide +kernel
    rw [e, e2]
    have e3 : ((0 : Int) : Rat) / 16 = 0 := by decide +kernel
    simp only [e3, Rat.zero_mul]

/-- C57. The pattern stands still if the deviance is exactly in the middle; in particular the position does not change. -/
theorem C57_still (c : StrobeConfig) (hs : 0 < c.speed) (hi : 0 ≤ c.interval) (es : List StrobeEvent) (now : Int) :
    (c.step (c.run c.initial es) (.deviance 8191 now)).pos = (c.run c.initial es).pos := by
  obtain ⟨h0, h1⟩ := run_pos c hs es c.initial (by constructor <;> simp [StrobeConfig.initial] <;> omega)
  generalize c.run c.initial es = st at *
  simp only [StrobeConfig.step]
  by_cases hc : c.count ≤ 1
  · rw [if_pos hc]
  · rw [if_neg hc]
    simp only [StrobeConfig.update]
    cases he : st.enabled with
    | false => simp
    | true =>
      simp only [Bool.not_true, Bool.false_eq_true, if_false]
      cases hx : (st.period.exceeded now).1 with
      | false => simp
      | true =>
        simp only [Bool.not_true, Bool.false_eq_true, if_false, StrobeConfig.draw]
        have hdelta : c.delta 8191 = 0 := by
          unfold StrobeConfig.delta
          cases c.reverse <;> simp <;> omega
        rw [hdelta, Int.zero_mul, Int.sub_zero]
        exact normalize_id c.speed st.pos h0 h1

/-- C57, as long as nobody else changes the LEDs: whenever a frame is due, all LEDs show the pattern for the new position. -/
theorem C57_shown_partial (c : StrobeConfig) (hc : 1 < c.count) (es : List StrobeEvent) (ho : ∀ l, .others l ∉ es)
    (v now : Int) (hen : (c.run c.initial es).enabled = true)
    (hdue : now - (c.run c.initial es).period.lastReset > (c.run c.initial es).period.interval) (k : Nat) (hk : k < c.count) :
    (c.step (c.run c.initial es) (.deviance v now)).leds k =
      c.brightness (c.step (c.run c.initial es) (.deviance v now)).pos k := by
  have hag := run_agree c k hk es c.initial ho rfl
  generalize c.run c.initial es = st at *
  have hx : (st.period.exceeded now).1 = true := by
    unfold PeriodCounter.exceeded
    rw [if_pos (by omega)]
  simp only [StrobeConfig.step, if_neg (show ¬ c.count ≤ 1 by omega), StrobeConfig.update, hen, hx, Bool.not_true, Bool.false_eq_true,
    if_false]
  exact (draw_agree c { st with enabled := true, period := (st.period.exceeded now).2, pos := normalize c.speed (st.pos - c.delta v * st.period.passed now), lastDeviance := v } k hk hag).1

/-- C57. Direction and speed of the movement: with each frame, the pattern moves by the deviance from the exact pitch (at most a
hundred times the frame interval) times the time passed since the last frame, in the configured direction. -/
theorem C57_direction (c : StrobeConfig) (hs : 0 < c.speed) (hi : 0 ≤ c.interval) (hc : 1 < c.count) (es : List StrobeEvent) (v now : Int)
    (hen : (c.run c.initial es).enabled = true)
    (hdue : now - (c.run c.initial es).period.lastReset > (c.run c.initial es).period.interval) :
    let st := c.run c.initial es
    let move := max (-(100 * c.interval)) (min (v - 8191) (100 * c.interval)) * (now - st.period.lastReset)
    (c.step st (.deviance v now)).pos % c.speed = (if c.reverse then st.pos + move else st.pos - move) % c.speed := by
  intro st move
  have hx : (st.period.exceeded now).1 = true := by
    unfold PeriodCounter.exceeded
    rw [if_pos (show st.period.lastReset + st.period.interval < now by simp only [st]; omega)]
  have hd : c.delta v = (if c.reverse then -1 else 1) * max (-(100 * c.interval)) (min (v - 8191) (100 * c.interval)) := by
    unfold StrobeConfig.delta
    simp only
    cases c.reverse
    · simp only [Bool.false_eq_true, if_false, Int.one_mul]
      split <;> split <;> omega
    · simp only [if_true]
      split <;> split <;> omega
  have hpos : (c.step st (.deviance v now)).pos = normalize c.speed (st.pos - c.delta v * (now - st.period.lastReset)) := by
    simp only [StrobeConfig.step, if_neg (show ¬ c.count ≤ 1 by omega), StrobeConfig.update, show st.enabled = true from hen, hx,
      Bool.not_true, Bool.false_eq_true, if_false, StrobeConfig.draw, PeriodCounter.passed]
  obtain ⟨n, r, -, e2, -, -, e5⟩ := C57_terminates c.speed hs (st.pos - c.delta v * (now - st.period.lastReset))
  rw [hpos, e2, e5, hd]
  cases c.reverse
  · simp only [Bool.false_eq_true, if_false, Int.one_mul]; rfl
  · simp only [if_true]
    congr 1
    simp only [move]
    rw [Int.neg_mul, Int.neg_mul, Int.one_mul, Int.sub_neg]

/-- C57. The strobe does not notice that the LEDs have been switched off when the tuner was engaged again: the second time
the switches stay dark although the pattern has not changed. -/
theorem C57_stale :
    let c : StrobeConfig := { count := 4, interval := 33 }
    let st := c.run c.initial [.tuner true 0, .deviance 8191 40, .tuner false 100, .others (fun _ => 1 / 2),
      .tuner true 200, .others (fun _ => 0), .deviance 8191 240, .deviance 8191 280]
    st.enabled = true ∧ st.leds 0 = 0 ∧ c.brightness st.pos 0 = 1 / 10 := by decide +kernel

example : let c : StrobeConfig := { count := 4, interval := frameInterval 120 4 }
    c.interval = 33 ∧
    (c.run c.initial [.tuner true 0, .deviance 9000 50, .deviance 9000 84]).leds 0 ≠ 0 ∧
    (c.run c.initial [.tuner true 0, .deviance 9000 50, .deviance 9000 84]).enabled = true ∧
    (c.run c.initial [.tuner true 0, .deviance 9000 50, .deviance 9000 84]).pos = -67956 := by decide +kernel

/-! ### C62 -/

/-- C62, if no press is pending from before: while the tuner is on, no switch triggers one of its own actions, whatever is
pressed and released in which order. The only thing which can happen is that the tuner is left. -/
theorem C62_no_actions_partial (cs : List Switch.Config) (st : OverrideState) (hon : st.on = true)
    (hq : ∀ sw ∈ st.switches, sw.holdActive = false) (es : List OverrideEvent) (he : ∀ e ∈ es, e.isProcess = true) :
    ∀ effs ∈ (overrideRun cs false st es).1, ∀ eff ∈ effs, eff = .leave := by
  induction es generalizing st with
  | nil => intro effs h; simp [overrideRun] at h
  | cons e es ih =>
    obtain ⟨h1, h2, h3⟩ := override_step_quiet cs st hon hq e (he e (by simp))
    intro effs h
    simp only [overrideRun, List.mem_cons] at h
    rcases h with rfl | h
    · exact h3
    · exact ih _ h1 h2 (fun x hx => he x (by simp [hx])) effs h

/-- C62. In tuner mode, a complete press of one switch (while the others are not touched) leaves the tuner: nothing happens
while it is down, however long that takes, and the tuner is switched off exactly once when it is released. -/
theorem C62_press (cs : List Switch.Config) (st : OverrideState) (hon : st.on = true) (hlen : st.switches.length = cs.length)
    (hq : ∀ sw ∈ st.switches, sw.holdActive = false ∧ sw.pushedState = false) (k : Nat) (hk : k < cs.length)
    (s0 s1 : Switch.Sample) (hs0 : s0.pushed = true) (hs1 : s1.pushed = false)
    (mid : List OverrideEvent) (hmid : ∀ e ∈ mid, e.isProcess = true ∧ e.down = e.isOf k) :
    ∃ quiet, (overrideRun cs false st (.process k s0 :: mid ++ [.process k s1])).1 = quiet ++ [[.leave]] ∧
      quiet.length = mid.length + 1 ∧ ∀ effs ∈ quiet, effs = [] := by
  -- State while the switch is down
  have hold : ∀ (mid : List OverrideEvent) (st : OverrideState), st.on = true → st.switches.length = cs.length → st.pushedBefore = true →
      (∀ j sw, st.switches[j]? = some sw → sw.holdActive = false ∧ sw.pushedState = (j == k)) →
      (∀ e ∈ mid, e.isProcess = true ∧ e.down = e.isOf k) →
      ∃ quiet, (overrideRun cs false st (mid ++ [.process k s1])).1 = quiet ++ [[.leave]] ∧
        quiet.length = mid.length ∧ ∀ effs ∈ quiet, effs = [] := by
    intro mid
    induction mid with
    | nil =>
      intro st hon hlen hpb hinv _
      obtain ⟨sw, hsw⟩ : ∃ sw, st.switches[k]? = some sw := ⟨_, List.getElem?_eq_getElem (by omega)⟩
      obtain ⟨hh, hp⟩ := hinv k sw hsw
      have hc := List.getElem?_eq_getElem hk
      have := override_process cs st hon k _ sw hc hsw hh s1
      refine ⟨[], ?_, rfl, by simp⟩
      simp only [List.nil_append, overrideRun]
      rw [this]
      simp [hs1, hp, hpb]
    | cons e mid ih =>
      intro st hon hlen hpb hinv hm
      obtain ⟨hpr, hdown⟩ := hm e (by simp)
      cases e with
      | tuner v => simp [OverrideEvent.isProcess] at hpr
      | process j s =>
        simp only [OverrideEvent.down, OverrideEvent.isOf] at hdown
        by_cases hj : j < cs.length
        · obtain ⟨sw, hsw⟩ : ∃ sw, st.switches[j]? = some sw := ⟨_, List.getElem?_eq_getElem (by omega)⟩
          obtain ⟨hh, hp⟩ := hinv j sw hsw
          have hc := List.getElem?_eq_getElem hj
          obtain ⟨sw1, hr1, hr2, hstep⟩ := override_process' cs st hon j _ sw hc hsw hh s
          have hstep' : overrideStep cs false st (.process j s) = ({ st with switches := st.switches.set j sw1 }, []) := by
            rw [hstep, hdown, hp]
            cases hjk : (j == k) <;> simp [hpb]
          obtain ⟨quiet, hqe, hql, hqa⟩ := ih { st with switches := st.switches.set j sw1 }
            hon (by simpa using hlen) hpb
            (by
              intro i sw' hi
              simp only [List.getElem?_set] at hi
              by_cases hji : j = i
              · rw [if_pos hji] at hi
                split at hi
                · simp only [Option.some.injEq] at hi
                  subst hi
                  subst hji
                  exact ⟨hr1, hr2.trans hdown⟩
                · simp at hi
              · rw [if_neg hji] at hi
                exact hinv i sw' hi)
            (fun x hx => hm x (by simp [hx]))
          refine ⟨[] :: quiet, ?_, by simp [hql], ?_⟩
          · simp only [List.cons_append, overrideRun, hstep', hqe]
          · intro effs h
            simp only [List.mem_cons] at h
            rcases h with rfl | h
            · rfl
            · exact hqa _ h
        · have hstep : overrideStep cs false st (.process j s) = (st, []) := by
            simp only [overrideStep]
            rw [List.getElem?_eq_none (by omega)]
          obtain ⟨quiet, hqe, hql, hqa⟩ := ih st hon hlen hpb hinv (fun x hx => hm x (by simp [hx]))
          refine ⟨[] :: quiet, ?_, by simp [hql], ?_⟩
          · simp only [List.cons_append, overrideRun, hstep, hqe]
          · intro effs h
            simp only [List.mem_cons] at h
            rcases h with rfl | h
            · rfl
            · exact hqa _ h
  obtain ⟨sw, hsw⟩ : ∃ sw, st.switches[k]? = some sw := ⟨_, List.getElem?_eq_getElem (by omega)⟩
  obtain ⟨hh, hp⟩ := hq sw (List.mem_of_getElem? hsw)
  have hc := List.getElem?_eq_getElem hk
  obtain ⟨sw1, hr1, hr2, hstep⟩ := override_process' cs st hon k _ sw hc hsw hh s0
  simp only [hs0, hp, if_true, Bool.false_eq_true, if_false] at hstep
  obtain ⟨quiet, hqe, hql, hqa⟩ := hold mid { st with pushedBefore := true, switches := st.switches.set k sw1 }
    hon (by simpa using hlen) rfl
    (by
      intro i sw' hi
      simp only [List.getElem?_set] at hi
      by_cases hji : k = i
      · rw [if_pos hji] at hi
        split at hi
        · simp only [Option.some.injEq] at hi
          subst hi
          subst hji
          exact ⟨hr1, by rw [hr2, hs0]; simp⟩
        · simp at hi
      · rw [if_neg hji] at hi
        have := hq sw' (List.mem_of_getElem? hi)
        exact ⟨this.1, by rw [this.2]; simp; omega⟩)
    hmid
  refine ⟨[] :: quiet, ?_, by simp [hql], ?_⟩
  · simp only [List.cons_append, overrideRun, hstep, hqe]
  · intro effs h
    simp only [List.mem_cons] at h
    rcases h with rfl | h
    · rfl
    · exact hqa _ h

/-- C62, if no press in tuner mode is left over: releasing the switch which has engaged the tuner does nothing. -/
theorem C62_engage_partial (cs : List Switch.Config) (st : OverrideState) (hon : st.on = true) (hpb : st.pushedBefore = false)
    (k : Nat) (sw : Switch.State) (hsw : st.switches[k]? = some sw) (hk : k < cs.length) (hh : sw.holdActive = false)
    (s : Switch.Sample) (hs : s.pushed = false) :
    (overrideStep cs false st (.process k s)).2 = [] ∧ (overrideStep cs false st (.process k s)).1.pushedBefore = false := by
  have := override_process cs st hon k _ sw (List.getElem?_eq_getElem hk) hsw hh s
  rw [this]
  cases sw.pushedState <;> simp [hs, hpb]

/-- C62. The tuner is only left after some switch has been pressed in tuner mode, for every history. -/
theorem C62_leave_needs_press (cs : List Switch.Config) (process : Bool) (switches : List Switch.State)
    (es : List OverrideEvent) (effs : List OverrideEff) (h : effs ∈ (overrideRun cs process { switches := switches } es).1)
    (hl : OverrideEff.leave ∈ effs) :
    ∃ pre k s post, es = pre ++ .process k s :: post ∧ s.pushed = true ∧
      (overrideRun cs process { switches := switches } pre).2.on = true := by
  have key : ∀ (es : List OverrideEvent) (st : OverrideState), st.pushedBefore = false →
      effs ∈ (overrideRun cs process st es).1 →
      ∃ pre k s post, es = pre ++ .process k s :: post ∧ s.pushed = true ∧ (overrideRun cs process st pre).2.on = true := by
    intro es
    induction es with
    | nil => intro st _ h; simp [overrideRun] at h
    | cons e es ih =>
      intro st hpb h
      by_cases hnow : ∃ k s, e = .process k s ∧ s.pushed = true ∧ st.on = true
      · obtain ⟨k, s, rfl, hs, hon⟩ := hnow
        exact ⟨[], k, s, es, rfl, hs, hon⟩
      · obtain ⟨h1, h2⟩ := override_step_no_press cs process st hpb e hnow
        simp only [overrideRun, List.mem_cons] at h
        rcases h with rfl | h
        · exact absurd hl h2
        · obtain ⟨pre, k, s, post, e1, e2, e3⟩ := ih _ h1 h
          exact ⟨e :: pre, k, s, post, by rw [e1]; rfl, e2, e3⟩
  exact key es _ rfl h

/-- C62. While the tuner is off, each switch works as if there was no tuner. -/
theorem C62_off (cs : List Switch.Config) (process : Bool) (st : OverrideState) (hoff : st.on = false) (k : Nat)
    (c : Switch.Config) (sw : Switch.State) (hc : cs[k]? = some c) (hsw : st.switches[k]? = some sw) (s : Switch.Sample)
    (hs : s.override = none) :
    (overrideStep cs process st (.process k s)).2 = (Switch.process c sw s).2.map (.own k) ∧
    (overrideStep cs process st (.process k s)).1.switches = st.switches.set k (Switch.process c sw s).1 ∧
    (overrideStep cs process st (.process k s)).1.on = false := by
  have e : ({ s with override := st.override process } : Switch.Sample) = s := by
    unfold OverrideState.override
    rw [hoff]
    cases s
    simp_all
  simp only [overrideStep, hc, hsw, e]
  refine ⟨?_, trivial, hoff⟩
  exact (applyOverride_own k st.pushedBefore _ (process_no_override c sw s hs)).2

/-- C62. If the underlying actions are to be processed, they are called in tuner mode exactly like outside, for each release
following a press in tuner mode. -/
theorem C62_process_overridden (cs : List Switch.Config) (st : OverrideState) (hon : st.on = true) (k : Nat)
    (c : Switch.Config) (sw : Switch.State) (hc : cs[k]? = some c) (hsw : st.switches[k]? = some sw) (s : Switch.Sample)
    (hs : s.override = none) (hpb : s.pushed = true ∨ st.pushedBefore = true) :
    (overrideStep cs true st (.process k s)).2.filter (· ≠ .leave) = (Switch.process c sw s).2.map (.own k) ∧
    (overrideStep cs true st (.process k s)).1.switches = st.switches.set k (Switch.process c sw s).1 := by
  have ho : st.override true = some (true, st.pushedBefore) := by
    unfold OverrideState.override
    rw [hon]; simp
  simp only [overrideStep, hc, hsw, ho]
  obtain ⟨h1, h2⟩ := process_overridden c sw s hs st.pushedBefore hpb
  refine ⟨?_, by rw [h1]⟩
  have := applyOverride_filter k st.pushedBefore (Switch.process c sw { s with override := some (true, st.pushedBefore) }).2
  rw [this, h2]

/-- C62. With overridden actions processed and two switches pressed at once, the release of the second one is lost: its
momentary action keeps being on. -/
theorem C62_second_release_lost :
    (overrideRun [{ actions := [0] }, { actions := [1] }] true { on := true, switches := [Switch.initial 600, Switch.initial 600] }
      [.process 0 ⟨true, 0, fun _ => true, none⟩, .process 1 ⟨true, 0, fun _ => true, none⟩,
       .process 0 ⟨false, 100, fun _ => true, none⟩, .process 1 ⟨false, 100, fun _ => true, none⟩]).1 =
      [[.own 0 (.push 0)], [.own 1 (.push 1)], [.leave, .own 0 (.release 0)], []] := by decide +kernel

/-- C62. A switch is pressed in tuner mode, but the tuner is switched off on the device before it is released. Next time the
tuner is engaged, releasing the tuner switch leaves it at once. -/
theorem C62_stale_press :
    (overrideRun [{ actions := [0] }] false { on := true, switches := [Switch.initial 600] }
      [.process 0 ⟨true, 0, fun _ => true, none⟩, .tuner 0, .process 0 ⟨false, 10, fun _ => true, none⟩,
       .process 0 ⟨true, 20, fun _ => true, none⟩, .tuner 1, .process 0 ⟨false, 30, fun _ => true, none⟩]).1 =
      [[], [.resetActions 0], [.own 0 (.release 0)], [.own 0 (.push 0)], [], [.leave]] := by decide +kernel

/-- C62. A hold action still fires in tuner mode if its switch has been pressed before the tuner was engaged. -/
theorem C62_hold_fires :
    (overrideRun [{ actions := [0], actionsHold := [1] }] false { switches := [Switch.initial 600] }
      [.process 0 ⟨true, 0, fun _ => true, none⟩, .tuner 1, .process 0 ⟨true, 700, fun _ => true, none⟩]).1 =
      [[], [], [.own 0 (.push 1), .own 0 (.release 1)]] := by decide +kernel

example : let st : OverrideState := { on := true, switches := [Switch.initial 600, Switch.initial 600] }
    st.on = true ∧ (∀ sw ∈ st.switches, sw.holdActive = false ∧ sw.pushedState = false) ∧
    (overrideRun [{ actions := [0] }, { actions := [1], actionsHold := [2] }] false st
      [.process 1 ⟨true, 0, fun _ => true, none⟩, .process 0 ⟨false, 0, fun _ => true, none⟩, .process 1 ⟨true, 700, fun _ => true, none⟩,
       .process 1 ⟨false, 800, fun _ => true, none⟩]).1 = [[], [], [], [.leave]] := by
  refine ⟨rfl, by simp [Switch.initial], by decide +kernel⟩

end PySwitch.Props
