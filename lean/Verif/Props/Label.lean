import Verif.Lemmas.Label
import Verif.Spec.Layout
import Verif.Lemmas.Num
/-
Properties of labels and the indicator dot: C75, C76.
-/
namespace PySwitch.Props
open PySwitch PySwitch.Label PySwitch.Layout

/-- C75. After any sequence of changes of text and colors, before and after the label has been initialised, it shows exactly
what has been asked for last: although everything is only written to the display when it differs from what was set before. -/
theorem C75_shows (wrap : Option (String → String)) (text : String) (textColor backColor : Option Color)
    (before after : List LabelEvent) (low : Bool) :
    ((LabelState.create text textColor backColor).run wrap (before ++ [.init low] ++ after)).drawn =
      some ((wishes text textColor backColor (before ++ [.init low] ++ after)).drawn wrap) := by
  have h0 : Follows wrap textColor (LabelState.create text textColor backColor) ⟨text, textColor, backColor⟩ := by
    refine ⟨rfl, rfl, rfl, ?_, by simp [LabelState.create]⟩
    intro _
    cases textColor with
    | none => exact .inr ⟨rfl, rfl⟩
    | some c => exact .inl rfl
  have h := follows_run wrap textColor (before ++ [.init low] ++ after) _ _ h0
  have hd : ((LabelState.create text textColor backColor).run wrap (before ++ [.init low] ++ after)).drawn.isSome := by
    simp only [LabelState.run, List.foldl_append]
    apply drawn_run wrap after
    rfl
  obtain ⟨d, hd⟩ := Option.isSome_iff_exists.1 hd
  rw [hd, (h.after d hd).2]
  rfl

/-- C75. Before the label has been initialised, nothing is drawn. -/
theorem C75_before (wrap : Option (String → String)) (text : String) (textColor backColor : Option Color)
    (es : List LabelEvent) (hes : ∀ low, LabelEvent.init low ∉ es) :
    ((LabelState.create text textColor backColor).run wrap es).drawn = none := by
  suffices h : ∀ (st : LabelState), st.drawn = none → (st.run wrap es).drawn = none from h _ rfl
  induction es with
  | nil => intro st h; exact h
  | cons e es ih =>
    intro st h
    refine ih (fun low hm => hes low (by simp [hm])) _ ?_
    have hc : ∀ (s : LabelState) (c : Option Color), s.drawn = none → (s.setTextColor c).drawn = none := by
      intro s c hs
      simp only [LabelState.setTextColor]
      by_cases hx : s.textColor = some (chosenColor c s.backColor)
      · rw [if_pos hx]; exact hs
      · rw [if_neg hx]; simpa using hs
    cases e with
    | init low => exact absurd (by simp) (hes low)
    | text t low =>
      simp only [LabelState.step, LabelState.setText]
      generalize (if low then "Low Memory!" else t) = t'
      by_cases hx : st.text = t'
      · rw [if_pos hx]; exact h
      · rw [if_neg hx]; simpa using h
    | textColor c => exact hc st c h
    | backColor c =>
      simp only [LabelState.step, LabelState.setBackColor]
      repeat' split
      · exact h
      · exact h
      · exact h
      · exact hc _ _ (by simpa using h)

/-- C75. The automatic text color is black or white, and differs from the background by more than 114 in luminance (of 255),
for every background color. -/
theorem C75_contrast (back : Color) :
    (contrastColor (some back) = white ∨ contrastColor (some back) = black) ∧
    (0 ≤ luminance back → 114 < luminance (contrastColor (some back)) - luminance back ∨
      114 < luminance back - luminance (contrastColor (some back))) := by
  have hw : luminance white = 25495 / 100 - 1 / 1000 := by decide +kernel
  have hb : luminance black = 0 := by decide +kernel
  simp only [contrastColor]
  by_cases h : luminance back < 140
  · rw [if_pos h]
    refine ⟨.inl rfl, fun _ => .inl ?_⟩
    rw [hw]; grind
  · rw [if_neg h]
    refine ⟨.inr rfl, fun _ => .inr ?_⟩
    rw [hb]; grind

/-- C75. The background stays inside the area of the label, with the frame left out on all sides. -/
theorem C75_background (b : Bounds) (stroke : Int) (hs : 0 ≤ stroke) (px py : Int) :
    (background b stroke).Has px py ↔ b.Has px py ∧ b.x + stroke ≤ px ∧ px < b.x + b.width - stroke ∧
      b.y + stroke ≤ py ∧ py < b.y + b.height - stroke := by
  simp only [background, Bounds.Has]; omega

example : ((LabelState.create "" none (some ⟨0, 0, 120⟩)).run none
    ([.text "Rig 1" false] ++ [.init false] ++ [.backColor (some ⟨255, 255, 0⟩), .text "Rig 2" false])).drawn =
      some ⟨"Rig 2", some black, some ⟨255, 255, 0⟩⟩ := by decide +kernel
example : 0 ≤ luminance ⟨255, 125, 0⟩ := by decide +kernel

/-! ### C76 -/

/-- C76. The indicator dot is inside the area passed, for every area with at least 6 x 6 pixels. -/
theorem C76_inside (b : Bounds) (hw : 6 ≤ b.width) (hh : 6 ≤ b.height) (px py : Int) (h : (dotBounds b).Has px py) :
    b.Has px py := by
  have e : pyInt ((4 : Int) / 2 : Rat) = 2 := by decide +kernel
  simp only [dotBounds, Bounds.Has, gt_iff_lt, Int.lt_irrefl, if_false, e] at h ⊢
  omega

/-- C76. After every update the dot has the color of the current state of the protocol, and it is written exactly when the
color has changed (or at the first update). -/
theorem C76_color (cs : List Color) (c : Color) :
    let st := cs.foldl (fun d c => (Dot.update d c).1) {}
    (st.update c).1.fill = c ∧ ((st.update c).2 = true ↔ cs.getLast? ≠ some c) := by
  intro st
  have inv : ∀ (cs : List Color) (d : Dot), (∀ x, d.current = some x → d.fill = x) →
      (∀ x, (cs.foldl (fun d c => (Dot.update d c).1) d).current = some x → (cs.foldl (fun d c => (Dot.update d c).1) d).fill = x) ∧
      (cs ≠ [] → (cs.foldl (fun d c => (Dot.update d c).1) d).current = cs.getLast?) ∧
      (cs = [] → (cs.foldl (fun d c => (Dot.update d c).1) d).current = d.current) := by
    intro cs
    induction cs with
    | nil => intro d h; exact ⟨h, by simp, fun _ => rfl⟩
    | cons x cs ih =>
      intro d h
      have hx : (d.update x).1.current = some x ∧ (d.update x).1.fill = x := by
        unfold Dot.update
        by_cases hd : d.current = some x
        · rw [if_pos hd]; exact ⟨hd, h x hd⟩
        · rw [if_neg hd]; exact ⟨rfl, rfl⟩
      obtain ⟨h1, h2, h3⟩ := ih (d.update x).1 (by intro y hy; rw [hx.1] at hy; cases hy; exact hx.2)
      refine ⟨h1, fun _ => ?_, by simp⟩
      cases cs with
      | nil => exact (h3 rfl).trans hx.1
      | cons y l => rw [List.getLast?_cons_cons]; exact h2 (by simp)
  obtain ⟨h1, h2, h3⟩ := inv cs {} (by simp)
  have hcur : st.current = cs.getLast? := by
    cases cs with
    | nil => rfl
    | cons x l => exact h2 (by simp)
  unfold Dot.update
  by_cases hd : st.current = some c
  · rw [if_pos hd]
    refine ⟨h1 c hd, ?_⟩
    rw [hcur] at hd
    simp [hd]
  · rw [if_neg hd]
    refine ⟨rfl, ?_⟩
    rw [hcur] at hd
    simp [hd]

example : dotBounds ⟨0, 0, 240, 240⟩ = ⟨234, 2, 4, 4⟩ := by decide +kernel

end PySwitch.Props
