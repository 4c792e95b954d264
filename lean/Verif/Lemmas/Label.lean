import Verif.Spec.Label
namespace PySwitch.Label
open PySwitch

/-- The state of a label fulfills the wishes. -/
structure Follows (wrap : Option (String → String)) (initial : Option Color) (st : LabelState) (w : Wish) : Prop where
  text : st.text = w.text
  back : st.backColor = w.back
  init : st.initialTextColor = initial
  before : st.drawn = none → st.textColor = some w.color ∨ (st.textColor = none ∧ w.chosen = none)
  after : ∀ d, st.drawn = some d → st.textColor = some w.color ∧ d = w.drawn wrap

theorem follows_textColor (wrap : Option (String → String)) (initial : Option Color) (st : LabelState) (w : Wish)
    (h : Follows wrap initial st w) (c : Option Color) :
    Follows wrap initial (st.setTextColor c) { w with chosen := c } ∧ (st.setTextColor c).textColor = some ({ w with chosen := c } : Wish).color := by
  have hcol : ({ w with chosen := c } : Wish).color = chosenColor c st.backColor := by
    cases c with
    | some x => rfl
    | none => simp [Wish.color, h.back, chosenColor]
  unfold LabelState.setTextColor
  simp only [← hcol]
  by_cases he : st.textColor = some ({ w with chosen := c } : Wish).color
  · rw [if_pos he]
    refine ⟨⟨h.text, h.back, h.init, fun _ => .inl he, ?_⟩, he⟩
    intro d hd
    obtain ⟨h1, h2⟩ := h.after d hd
    refine ⟨he, ?_⟩
    rw [h1] at he
    simp only [Option.some.injEq] at he
    rw [h2]
    simp [Wish.drawn, he]
  · rw [if_neg he]
    refine ⟨⟨h.text, h.back, h.init, fun _ => .inl rfl, ?_⟩, rfl⟩
    intro d hd
    refine ⟨rfl, ?_⟩
    simp only [Option.map_eq_some_iff] at hd
    obtain ⟨d', hd', rfl⟩ := hd
    obtain ⟨_, h2⟩ := h.after d' hd'
    rw [h2]
    rfl

theorem follows_text (wrap : Option (String → String)) (initial : Option Color) (st : LabelState) (w : Wish)
    (h : Follows wrap initial st w) (t : String) (low : Bool) :
    Follows wrap initial (st.setText wrap t low) { w with text := if low then "Low Memory!" else t } := by
  unfold LabelState.setText
  generalize (if low then "Low Memory!" else t) = t'
  by_cases he : st.text = t'
  · rw [if_pos he]
    have : { w with text := t' } = w := by rw [← he, h.text]
    rw [this]
    exact h
  · rw [if_neg he]
    refine ⟨rfl, h.back, h.init, ?_, ?_⟩
    · intro hd
      simp only [Option.map_eq_none_iff] at hd
      exact h.before hd
    · intro d hd
      simp only [Option.map_eq_some_iff] at hd
      obtain ⟨d', hd', rfl⟩ := hd
      obtain ⟨h1, h2⟩ := h.after d' hd'
      refine ⟨h1, ?_⟩
      rw [h2]
      rfl

theorem follows_step (wrap : Option (String → String)) (initial : Option Color) (st : LabelState) (w : Wish)
    (h : Follows wrap initial st w) (e : LabelEvent) : Follows wrap initial (st.step wrap e) (w.step initial e) := by
  cases e with
  | text t low => exact follows_text wrap initial st w h t low
  | textColor c => exact (follows_textColor wrap initial st w h c).1
  | init low =>
    -- Setting the text color to what it is keeps the wishes
    have h1 : Follows wrap initial (st.setTextColor st.textColor) w ∧ (st.setTextColor st.textColor).textColor = some w.color := by
      by_cases hd : st.drawn = none
      · rcases h.before hd with hc | ⟨hc, hw⟩
        · have : st.setTextColor st.textColor = st := by simp [LabelState.setTextColor, hc, chosenColor]
          rw [this]; exact ⟨h, hc⟩
        · have := follows_textColor wrap initial st w h none
          rw [hc]
          have hw' : ({ w with chosen := none } : Wish) = w := by rw [← hw]
          rw [hw'] at this
          exact this
      · cases hdd : st.drawn with
        | none => exact absurd hdd hd
        | some d =>
          have hc := (h.after d hdd).1
          have : st.setTextColor st.textColor = st := by simp [LabelState.setTextColor, hc, chosenColor]
          rw [this]; exact ⟨h, hc⟩
    have h2 := follows_text wrap initial _ w h1.1 (st.setTextColor st.textColor).text low
    have hw : ({ w with text := if low then "Low Memory!" else (st.setTextColor st.textColor).text } : Wish) = w.step initial (.init low) := by
      cases low with
      | true => rfl
      | false => simp [Wish.step, h1.1.text]
    rw [hw] at h2
    have hc : ((st.setTextColor st.textColor).setText wrap (st.setTextColor st.textColor).text low).textColor = some (w.step initial (.init low)).color := by
      have e1 : ((st.setTextColor st.textColor).setText wrap (st.setTextColor st.textColor).text low).textColor = (st.setTextColor st.textColor).textColor := by
        generalize st.setTextColor st.textColor = s
        simp only [LabelState.setText]
        by_cases hx : s.text = if low = true then "Low Memory!" else s.text
        · rw [if_pos hx]
        · rw [if_neg hx]
      rw [e1, h1.2]
      cases low <;> rfl
    simp only [LabelState.step, LabelState.init]
    refine ⟨h2.text, h2.back, h2.init, by simp, ?_⟩
    intro d hd
    simp only [Option.some.injEq] at hd
    refine ⟨hc, ?_⟩
    rw [← hd, h2.text, h2.back, hc]
    rfl
  | backColor c =>
    simp only [LabelState.step, LabelState.setBackColor, Wish.step]
    cases hb : w.back with
    | none =>
      have hb' : st.backColor = none := by rw [h.back, hb]
      cases c with
      | none => simpa [hb'] using h
      | some c => simpa [hb'] using h
    | some b =>
      have hb' : st.backColor = some b := by rw [h.back, hb]
      cases c with
      | none => simpa [hb'] using h
      | some c =>
        by_cases he : b = c
        · simpa [hb', he] using h
        · have hne : ¬ (some b = some c) := by simpa using he
          simp only [hb', Option.isSome_some, Option.isNone_some, Bool.false_eq_true, and_false, false_and, if_false, hne, he,
            Option.getD_some]
          have h1 : Follows wrap initial
              { st with backColor := some c, drawn := st.drawn.map (fun d => { d with back := some c }), textColor := st.textColor }
              { w with back := some c, chosen := st.textColor } := by
            refine ⟨h.text, rfl, h.init, ?_, ?_⟩
            · intro hd
              cases htc : st.textColor with
              | none => exact .inr ⟨rfl, rfl⟩
              | some x => exact .inl rfl
            · intro d hd
              simp only [Option.map_eq_some_iff] at hd
              obtain ⟨d', hd', rfl⟩ := hd
              obtain ⟨h1, h2⟩ := h.after d' hd'
              refine ⟨?_, ?_⟩
              · simp [Wish.color, h1]
              · rw [h2]; simp [Wish.drawn, Wish.color, h1]
          have h2 := (follows_textColor wrap initial _ _ h1 st.initialTextColor).1
          rw [← h.init] at h2 ⊢
          exact h2

theorem follows_run (wrap : Option (String → String)) (initial : Option Color) : ∀ (es : List LabelEvent) (st : LabelState)
    (w : Wish), Follows wrap initial st w → Follows wrap initial (st.run wrap es) (es.foldl (Wish.step initial) w) := by
  intro es
  induction es with
  | nil => intro st w h; exact h
  | cons e es ih => intro st w h; exact ih _ _ (follows_step wrap initial st w h e)

theorem drawn_run (wrap : Option (String → String)) : ∀ (es : List LabelEvent) (st : LabelState), st.drawn.isSome →
    (st.run wrap es).drawn.isSome := by
  intro es
  induction es with
  | nil => intro st h; exact h
  | cons e es ih =>
    intro st h
    apply ih
    have hc : ∀ (s : LabelState) (c : Option Color), s.drawn.isSome → (s.setTextColor c).drawn.isSome := by
      intro s c hs
      simp only [LabelState.setTextColor]
      by_cases hx : s.textColor = some (chosenColor c s.backColor)
      · rw [if_pos hx]; exact hs
      · rw [if_neg hx]; simpa using hs
    cases e with
    | init low => simp [LabelState.step, LabelState.init]
    | text t low =>
      simp only [LabelState.step, LabelState.setText]
      generalize (if low then "Low Memory!" else t) = t'
      by_cases hx : st.text = t'
      · rw [if_pos hx]; exact h
      · rw [if_neg hx]; simpa using h
    | textColor c => exact hc st c h
    | backColor c =>
      simp only [LabelState.step, LabelState.setBackColor]
      repeat' split
      · exact h
      · exact h
      · exact h
      · exact hc _ _ (by simpa using h)

end PySwitch.Label
