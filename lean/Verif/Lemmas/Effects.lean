import Verif.Spec.Effects
import Verif.Lemmas.Binary
/-
Lemmas about effect slots.
-/
namespace PySwitch.Effects
open PySwitch

theorem labelText_append (s) (a b : List Eff) : labelText s (a ++ b) = labelText (labelText s a) b := by
  induction a generalizing s with
  | nil => rfl
  | cons e a ih => cases e <;> simp [labelText, ih]

theorem leds_append (s) (a b : List Eff) : leds s (a ++ b) = leds (leds s a) b := by
  induction a generalizing s with
  | nil => rfl
  | cons e a ih =>
    cases e with
    | text t => simp [leds, ih]
    | base b => cases b <;> simp [leds, ih]

theorem labelText_base (s) (a : List Binary.Eff) : labelText s (a.map .base) = s := by
  induction a generalizing s with
  | nil => rfl
  | cons e a ih => simp [labelText, ih]

theorem leds_base (s) (a : List Binary.Eff) : leds s (a.map .base) = Binary.leds s a := by
  induction a generalizing s with
  | nil => rfl
  | cons e a ih => cases e <;> simp [leds, Binary.leds, ih]

theorem leds_texts (s) (o : Option String) : leds s (o.map Eff.text).toList = s := by
  cases o <;> rfl

theorem run_snoc (c : Config) (st : State) (h : List Op) (o : Op) :
    (run c st (h ++ [o])).2 = (step c (run c st h).2 o).1 ∧
    (run c st (h ++ [o])).1 = (run c st h).1 ++ [(step c (run c st h).2 o).2] := by
  induction h generalizing st with
  | nil => exact ⟨rfl, rfl⟩
  | cons x h ih =>
    obtain ⟨h1, h2⟩ := ih (step c st x).1
    exact ⟨h1, by simp [run, h2]⟩

/-- What holds for the display between events. -/
structure Shown (c : Config) (text : Option String) (led : Option (Nat × Bool)) (st : State) : Prop where
  text : c.hasLabel = true → ∀ t, st.currentType = some t → text = categoryText c (getCategory t) (some t)
  led : ∀ col s, st.base.currentColor = some col → st.base.displayState = some s → led = some (col, s)

/-- ... and after `update_displays`. -/
structure Drawn (c : Config) (st : State) : Prop where
  type : st.currentType = st.fxtype
  color : st.base.currentColor = some (((categoryColor c (categoryOf st.fxtype)).map encode).getD 0)
  state : st.base.displayState = some st.base.state
  value : st.base.currentValue = some st.base.value

/-- Case distinction. -/
theorem ite_ind {α : Type} {P : α → Prop} {c : Prop} [Decidable c] {a b : α} (h1 : c → P a) (h2 : ¬ c → P b) :
    P (if c then a else b) := by
  by_cases h : c
  · rw [if_pos h]; exact h1 h
  · rw [if_neg h]; exact h2 h

theorem getCategory_lt (t : Int) : getCategory t < 19 := by
  unfold getCategory
  repeat (refine ite_ind (P := (· < 19)) (fun _ => by decide) (fun _ => ?_))
  decide

theorem category_total (c : Config) (t : Int) :
    (categoryColor c (getCategory t)).isSome = true ∧ (categoryText c (getCategory t) (some t)).isSome = true := by
  have h := getCategory_lt t
  have hc : (categoryColors[getCategory t]?).isSome = true := by
    rw [List.getElem?_eq_getElem (by exact h)]; rfl
  have hn : (categoryNames[getCategory t]?).isSome = true := by
    rw [List.getElem?_eq_getElem (by exact h)]; rfl
  constructor
  · unfold categoryColor; split
    · rfl
    · exact hc
  · unfold categoryText
    split
    · rfl
    · have : ∀ x : Option String, x.isSome = true → (match c.slotName with
          | some s => x.map (fun n => s ++ " " ++ n)
          | none => x).isSome = true := by
        intro x hx; cases c.slotName <;> simp [hx]
      refine this _ ?_
      split
      · split
        · rfl
        · exact hn
      · exact hn

theorem updateDisplays_shown {c tx l st} (h : Shown c tx l st) :
    Shown c (labelText tx (updateDisplays c st).2) (leds l (updateDisplays c st).2) (updateDisplays c st).1 ∧
    Drawn c (updateDisplays c st).1 := by
  unfold updateDisplays
  simp only
  generalize hb : (if categoryOf st.fxtype = CATEGORY_NONE then { st.base with state := false } else st.base) = base
  have hc : base.currentColor = st.base.currentColor ∧ base.displayState = st.base.displayState := by
    rw [← hb]; split <;> exact ⟨rfl, rfl⟩
  have hled : ∀ col s, base.currentColor = some col → base.displayState = some s → l = some (col, s && true) := by
    intro col s h1 h2
    rw [Bool.and_true]
    exact h.led col s (hc.1 ▸ h1) (hc.2 ▸ h2)
  have hd : Binary.Disp (baseConfig c (categoryOf st.fxtype)) l l none base :=
    ⟨hled, fun col s h1 h2 _ => hled col s h1 h2, by intro _ _ _ _ _ h; simp [baseConfig] at h⟩
  obtain ⟨hd', e1, e2⟩ := Binary.updateDisplays_disp hd
  obtain ⟨e3, e4⟩ := Binary.updateDisplays_sync (baseConfig c (categoryOf st.fxtype)) base
  have hl : ∀ s, leds s (if st.currentType = st.fxtype then []
      else if c.hasLabel then ((categoryText c (categoryOf st.fxtype) st.fxtype).map Eff.text).toList else []) = s := by
    intro s; split
    · rfl
    · split
      · exact leds_texts _ _
      · rfl
  refine ⟨⟨?_, ?_⟩, rfl, e1, e2, by rw [e3, e4]⟩
  · intro hlab t ht
    simp only at ht
    rw [labelText_append, labelText_base]
    by_cases e : st.currentType = st.fxtype
    · rw [if_pos e]
      exact h.text hlab t (e ▸ ht)
    · rw [if_neg e, if_pos hlab, ht]
      simp only [categoryOf]
      have := (category_total c t).2
      cases hct : categoryText c (getCategory t) (some t) with
      | none => rw [hct] at this; simp at this
      | some x => rfl
  · intro col s h1 h2
    rw [leds_append, hl, leds_base]
    have := hd'.led col s h1 h2
    rw [this]
    simp [baseConfig]

theorem labelText_stateChanged (s) (a : List Binary.Eff) : labelText s (a.map .base) = s := labelText_base s a

theorem leds_stateChanged (c : Binary.Config) (st : Binary.State) (s) :
    leds s ((Binary.stateChanged c st).map .base) = s := by
  rw [leds_base]
  exact (Binary.stateChanged_disp c st s none none).1

theorem step_shown {c tx l st} (h : Shown c tx l st) (o : Op) :
    Shown c (labelText tx (step c st o).2) (leds l (step c st o).2) (step c st o).1 ∧ Drawn c (step c st o).1 := by
  cases o with
  | value v => exact updateDisplays_shown (st := { st with base := { st.base with value := v } }) ⟨h.text, h.led⟩
  | fxtype t => exact updateDisplays_shown (st := { st with fxtype := t }) ⟨h.text, h.led⟩
  | toggle =>
    simp only [step]
    rw [labelText_append, leds_append, labelText_base, leds_stateChanged]
    exact updateDisplays_shown (st := { st with base := { st.base with state := !st.base.state } }) ⟨h.text, h.led⟩
  | reset =>
    refine updateDisplays_shown ⟨?_, ?_⟩
    · intro _ t ht; simp [reset] at ht
    · intro _ _ ht; simp [reset, Binary.reset] at ht
  | enable v t =>
    refine updateDisplays_shown ⟨?_, ?_⟩
    · intro _ t ht; simp [reset] at ht
    · intro _ _ ht; simp [reset, Binary.reset] at ht

theorem run_shown {c : Config} (h : List Op) {tx l st} (hs : Shown c tx l st) :
    Shown c (labelText tx (run c st h).1.flatten) (leds l (run c st h).1.flatten) (run c st h).2 := by
  induction h generalizing tx l st with
  | nil => exact hs
  | cons o h ih =>
    simp only [run, List.flatten_cons, labelText_append, leds_append]
    exact ih (step_shown hs o).1

theorem initial_shown (c : Config) : Shown c none none initial :=
  ⟨by intro _ t ht; simp [initial] at ht, by intro _ _ ht; simp [initial, Binary.initial] at ht⟩

theorem run_drawn {c : Config} {h : List Op} (hne : h ≠ []) : Drawn c (run c initial h).2 := by
  obtain ⟨h', o, rfl⟩ : ∃ h' o, h = h' ++ [o] := ⟨h.dropLast, h.getLast hne, (List.dropLast_concat_getLast hne).symm⟩
  rw [(run_snoc c initial h' o).1]
  exact (step_shown (run_shown h' (initial_shown c)) o).2

end PySwitch.Effects
