import Verif.Lemmas.Preview
/-
C42, C68, C69: value previews on display labels.
-/
namespace PySwitch.Props
open PySwitch.Preview

/-- A label with a callback. -/
def exPreview : Preview.Config := {}

/-! ### C42 -/

/-- C42. In any state of the label: when a preview text is set at the time `t₀`, the label shows it, whatever its normal
text becomes, as long as the preview has not timed out. A preview which stays, or has no timeout, never times out. -/
theorem C42_shown (c : Preview.Config) (st : Preview.State) (t₀ : Int) (r : Request) (hr : r.text ≠ "") (os : List Preview.Op)
    (ho : ∀ o ∈ os, o.passive = true)
    (hn : r.stay = false → ∀ T, r.timeout = some T → ∀ o ∈ os, o.updateAfter (t₀ + T) = false) :
    (Preview.run c st (.preview t₀ r :: os)).1.text = r.text := by
  obtain ⟨h1, h2, h3, h4, _, _, h5, _⟩ := preview_spec c st t₀ r
  have hs : Showing r.text r.stay (r.timeout.map (fun T => { interval := T, lastReset := t₀ })) (preview c st t₀ r).1 :=
    ⟨h1, h5 hr, h2, h3⟩
  refine (hs.keep hr ho ?_).1.text
  intro hst q hq
  obtain ⟨T, hT, rfl⟩ := Option.map_eq_some_iff.1 hq
  exact hn hst T hT

/-- C42. When the timeout has passed, the normal text returns with the next update. -/
theorem C42_timeout_partial (c : Preview.Config) (hc : c.callback = true) (st : Preview.State) (t₀ T : Int) (r : Request)
    (hr : r.stay = false) (hT : r.timeout = some T) (os : List Preview.Op) (ho : ∀ o ∈ os, o.passive = true)
    (hn : ∃ o ∈ os, o.updateAfter (t₀ + T) = true) :
    (Preview.run c st (.preview t₀ r :: os)).1.text = latestContent st.content os := by
  obtain ⟨h1, h2, h3, h4, _, _, h5, h6⟩ := preview_spec c st t₀ r
  simp only [Preview.run, Preview.step]
  by_cases ht : r.text = ""
  · have hs : Normal (preview c st t₀ r).1 := ⟨by simp [hasOverride, h1, ht], by rw [h6 ht hc, h4]⟩
    obtain ⟨h7, h8⟩ := hs.run hc ho
    rw [h7.text, h8, h4]
  · have hs : Showing r.text false (some { interval := T, lastReset := t₀ }) (preview c st t₀ r).1 :=
      ⟨h1, h5 ht, by rw [h2, hr], by rw [h3, hT]; rfl⟩
    obtain ⟨h7, h8⟩ := hs.ends hc ht ho hn
    rw [h7.text, h8, h4]

example : (Preview.run exPreview { content := "Rig", text := "Rig" }
    [.preview 1000 { text := "50%" }, .update 2000, .content "Other", .update 2500]).1.text = "50%" := by decide +kernel
example : (Preview.run exPreview { content := "Rig", text := "Rig" }
    [.preview 1000 { text := "50%" }, .update 2000, .content "Other", .update 2501]).1.text = "Other" := by decide +kernel

/-- C42. An immediate reset brings back the normal text at once, until the next preview. -/
theorem C42_reset (c : Preview.Config) (hc : c.callback = true) (st : Preview.State) (t : Int) (os : List Preview.Op)
    (ho : ∀ o ∈ os, o.passive = true) :
    (Preview.run c st (.reset t true :: os)).1.text = latestContent st.content os := by
  have hs : Normal (reset c st t true) ∧ (reset c st t true).content = st.content := by
    exact ⟨reset_true_normal hc st t, (reset_clients c st t true).2⟩
  obtain ⟨h1, h2⟩ := hs.1.run hc ho
  simp only [Preview.run, Preview.step]
  rw [h1.text, h2, hs.2]

/-- C42. After a delayed reset at the time `t₁`, the preview text remains until the timeout and then the normal text
returns; also for previews which stay. Without a timeout it returns at once. -/
theorem C42_delayed_reset (c : Preview.Config) (hc : c.callback = true) (st : Preview.State) (t₀ t₁ : Int) (r : Request)
    (hr : r.text ≠ "") (hst : r.stay = true) (os os' : List Preview.Op) (ho : ∀ o ∈ os, o.passive = true)
    (ho' : ∀ o ∈ os', o.passive = true) :
    (Preview.run c st (.preview t₀ r :: os ++ .reset t₁ false :: os')).1.text =
      match r.timeout with
      | none => latestContent st.content (os ++ os')
      | some T =>
        if ∃ o ∈ os', o.updateAfter (t₁ + T) = true then latestContent st.content (os ++ os') else r.text := by
  obtain ⟨h1, h2, h3, h4, _, _, h5, _⟩ := preview_spec c st t₀ r
  have hs : Showing r.text r.stay (r.timeout.map (fun T => { interval := T, lastReset := t₀ })) (preview c st t₀ r).1 :=
    ⟨h1, h5 hr, h2, h3⟩
  obtain ⟨h6, h7⟩ := hs.keep (c := c) hr ho (by rw [hst]; simp)
  have hlc : ∀ a : List Preview.Op, ∀ s, latestContent s (a ++ os') = latestContent (latestContent s a) os' := by
    intro a
    induction a with
    | nil => intro s; rfl
    | cons o a ih => intro s; cases o <;> exact ih _
  have hrun : (Preview.run c st (.preview t₀ r :: os ++ .reset t₁ false :: os')).1 =
      (Preview.run c (reset c (Preview.run c (preview c st t₀ r).1 os).1 t₁ false) os').1 := by
    rw [Preview.run_append]; rfl
  rw [hrun]
  generalize Preview.run c (preview c st t₀ r).1 os = x at h6 h7
  obtain ⟨s, _⟩ := x
  simp only at h6 h7 ⊢
  have hcont := (reset_clients c s t₁ false).2
  cases hT : r.timeout with
  | none =>
    have hp : s.period = none := by rw [h6.period, hT]; rfl
    have hn : Normal (reset c s t₁ false) := by
      unfold reset
      simp only [hp]
      refine ⟨by unfold hasOverride; rw [updateLabel_same], ?_⟩
      exact (updateLabel_none (st := ⟨s.content, s.text, none, c.origColor, none, none, false, s.blinkState, s.blinkColor, s.clients⟩)
        hc rfl).trans (by rw [updateLabel_same])
    obtain ⟨h8, h9⟩ := hn.run hc ho'
    rw [h8.text, h9, hcont, h7, h4, hlc]
  | some T =>
    have hp : s.period = some { interval := T, lastReset := t₀ } := by rw [h6.period, hT]; rfl
    have hn : Showing r.text false (some { interval := T, lastReset := t₁ }) (reset c s t₁ false) := by
      unfold reset
      simp only [hp]
      exact ⟨h6.ov, h6.text, rfl, rfl⟩
    simp only
    by_cases hex : ∃ o ∈ os', o.updateAfter (t₁ + T) = true
    · rw [if_pos hex]
      obtain ⟨h8, h9⟩ := hn.ends hc hr ho' hex
      rw [h8.text, h9, hcont, h7, h4, hlc]
    · rw [if_neg hex]
      refine (hn.keep hr ho' ?_).1.text
      intro _ q hq o hoo
      simp only [Option.some.injEq] at hq
      subst hq
      cases hu : o.updateAfter (t₁ + T) with
      | false => rfl
      | true => exact absurd ⟨o, hoo, hu⟩ hex

/-- C42. A preview cancels all the other clients which have used the label before, each once, and not the client itself
(if it is one). -/
theorem C42_takeover (c : Preview.Config) (h : List Preview.Op) (t : Int) (r : Request) :
    (Preview.run c {} (h ++ [.preview t r])).2.getLast? =
      some ((previewers h []).filter (fun k => some k ≠ r.client)) ∧ (previewers h []).Nodup := by
  have key : ∀ (h : List Preview.Op) (s : Preview.State), s.clients.Nodup →
      (Preview.run c s h).1.clients = previewers h s.clients ∧ (previewers h s.clients).Nodup := by
    intro h
    induction h with
    | nil => intro s hs; exact ⟨rfl, hs⟩
    | cons o h ih =>
      intro s hs
      simp only [Preview.run]
      have h1 : (Preview.step c s o).1.clients.Nodup := by
        cases o with
        | preview t r =>
          simp only [Preview.step]
          rw [(preview_spec c s t r).2.2.2.2.2.1]
          split
          · exact hs
          · split
            · exact hs
            · rename_i hk
              exact List.nodup_append.2 ⟨hs, by simp, by simp; intro a ha h; subst h; exact hk ha⟩
        | reset t i => simp only [Preview.step]; rw [(reset_clients c s t i).1]; exact hs
        | update t =>
          have : (update c s t).clients = s.clients := by
            unfold update updateTimeout updateBlink
            repeat' split
            all_goals first | rfl | (simp only; repeat' split) <;> first | rfl | (rw [updateLabel_same])
          simp only [Preview.step]; rw [this]; exact hs
        | content s' => simp only [Preview.step]; rw [updateLabel_same]; exact hs
      obtain ⟨h2, h3⟩ := ih _ h1
      rw [h2]
      cases o with
      | preview t r =>
        simp only [Preview.step] at h3 ⊢
        rw [(preview_spec c s t r).2.2.2.2.2.1] at h3 ⊢
        cases hk : r.client with
        | none => rw [hk] at h3; simpa [previewers, hk] using h3
        | some k => rw [hk] at h3; simpa [previewers, hk] using h3
      | reset t i =>
        simp only [Preview.step, (reset_clients c s t i).1] at h3 ⊢
        exact ⟨rfl, h3⟩
      | update t =>
        have : (update c s t).clients = s.clients := by
          unfold update updateTimeout updateBlink
          repeat' split
          all_goals first | rfl | (simp only; repeat' split) <;> first | rfl | (rw [updateLabel_same])
        simp only [Preview.step, this] at h3 ⊢
        exact ⟨rfl, h3⟩
      | content s' =>
        simp only [Preview.step] at h3 ⊢
        rw [updateLabel_same] at h3 ⊢
        exact ⟨rfl, h3⟩
  obtain ⟨h1, h2⟩ := key h {} (by simp)
  refine ⟨?_, h2⟩
  rw [run_append_snd]
  simp only [Preview.run, Preview.step, List.getLast?_concat]
  rw [(preview_spec c _ t r).2.2.2.2.1, h1]

example : (Preview.run exPreview {} [.preview 0 { text := "a", client := some 1 }, .preview 5 { text := "b" },
    .preview 6 { text := "b", client := some 2 }, .preview 9 { text := "b", client := some 1 }]).2 =
    [[], [1], [1], [2]] := by decide +kernel

/-- C42 fails for labels without a callback: there is no normal text to return to, the preview text stays forever. -/
theorem C42_no_callback :
    (Preview.run { callback := false } { text := "Text" } [.preview 0 { text := "50%" }, .update 5000]).1.text = "50%" := by
  decide +kernel

/-! ### C68 -/

/-- C68. As long as no preview blinks, the text color is the original one. -/
theorem C68_no_blink (c : Preview.Config) (h : List Preview.Op)
    (hb : ∀ o ∈ h, ∀ t r, o = .preview t r → r.blink = none) (st : Preview.State) (hs : st.textColor = c.origColor)
    (hs' : st.blinkPeriod = none) : (Preview.run c st h).1.textColor = c.origColor := by
  induction h generalizing st with
  | nil => exact hs
  | cons o h ih =>
    simp only [Preview.run]
    have hres : ∀ (s : Preview.State) (t : Int) (i : Bool), (reset c s t i).textColor = c.origColor ∧
        (reset c s t i).blinkPeriod = none := by
      intro s t i
      unfold reset
      simp only
      split
      · rw [updateLabel_same]; simp
      · split
        · rw [updateLabel_same]; simp
        · simp
    have key : (Preview.step c st o).1.textColor = c.origColor ∧ (Preview.step c st o).1.blinkPeriod = none := by
      cases o with
      | preview t r =>
        have hcan : ∀ (ks : List Nat) (s : Preview.State), s.textColor = c.origColor → s.blinkPeriod = none →
            (cancelOthers c r.client t s ks).1.textColor = c.origColor ∧
            (cancelOthers c r.client t s ks).1.blinkPeriod = none := by
          intro ks
          induction ks with
          | nil => intro s h1 h2; exact ⟨h1, h2⟩
          | cons k ks ih =>
            intro s h1 h2
            unfold cancelOthers
            split
            · exact ih s h1 h2
            · simp only
              refine ih _ ?_ ?_
              · split
                · exact (hres _ _ _).1
                · exact h1
              · split
                · exact (hres _ _ _).2
                · exact h2
        obtain ⟨h1, h2⟩ := hcan st.clients st hs hs'
        simp only [Preview.step, preview]
        rw [updateLabel_same]
        simp only [hb _ (List.mem_cons_self) t r rfl, newBlinkPeriod]
        exact ⟨h1, trivial⟩
      | reset t i => exact hres st t i
      | update t =>
        have h1 : (updateTimeout c st t).textColor = st.textColor ∧ (updateTimeout c st t).blinkPeriod = st.blinkPeriod := by
          unfold updateTimeout
          split
          · simp
          · split
            · simp
            · simp only
              split
              · rw [updateLabel_same]; simp
              · simp
        simp only [Preview.step, update]
        split
        · unfold updateBlink
          rw [h1.2, hs']
          exact ⟨by rw [h1.1, hs], by rw [h1.2, hs']⟩
        · exact ⟨hs, hs'⟩
      | content s => simp only [Preview.step]; rw [updateLabel_same]; exact ⟨hs, hs'⟩
    exact ih (fun o ho => hb o (List.mem_cons_of_mem _ ho)) _ key.1 key.2

/-- C68. Every reset ends the blinking: the text color is the original one from then on, until the next preview. -/
theorem C68_reset_partial (c : Preview.Config) (st : Preview.State) (t : Int) (i : Bool) (os : List Preview.Op)
    (ho : ∀ o ∈ os, o.passive = true) :
    (Preview.run c st (.reset t i :: os)).1.textColor = c.origColor := by
  have hres : (reset c st t i).textColor = c.origColor ∧ (reset c st t i).blinkPeriod = none := by
    unfold reset
    simp only
    split
    · rw [updateLabel_same]; simp
    · split
      · rw [updateLabel_same]; simp
      · simp
  simp only [Preview.run, Preview.step]
  refine C68_no_blink c os ?_ _ hres.1 hres.2
  rintro o hoo t r rfl
  simpa [Op.passive] using ho _ hoo

example : (Preview.run exPreview {} [.preview 1000 { text := "a", stay := true, blink := some 300, blinkColor := ⟨1, 2, 3⟩ },
    .update 1400]).1.textColor = ⟨1, 2, 3⟩ := by decide +kernel

/-- C68. While a blinking preview is shown, the text color changes between the blinking and the original color, each time the
blinking period has passed, and not before. -/
theorem C68_blinks (c : Preview.Config) (st : Preview.State) (hs : st.stay = true) (ho : hasOverride st = true)
    (p : PeriodCounter) (hp : st.blinkPeriod = some p) (t1 t2 : Int) (h1 : p.lastReset + p.interval < t1)
    (h2 : t1 + p.interval < t2) :
    let a := (Preview.step c st (.update t1)).1
    let b := (Preview.step c a (.update t2)).1
    ((a.textColor = st.blinkColor ∧ b.textColor = c.origColor) ∨ (a.textColor = c.origColor ∧ b.textColor = st.blinkColor)) ∧
    (∀ t, t ≤ t1 + p.interval → (Preview.step c a (.update t)).1.textColor = a.textColor) ∧
    a.text = st.text ∧ b.text = st.text := by
  have upd : ∀ (s : Preview.State) (q : PeriodCounter) (t : Int), s.stay = true → hasOverride s = true → s.blinkPeriod = some q →
      Preview.update c s t = if q.lastReset + q.interval < t
        then { s with blinkPeriod := some { q with lastReset := t }, blinkState := !s.blinkState,
                      textColor := if (!s.blinkState) = true then s.blinkColor else c.origColor }
        else s := by
    intro s q t hs ho hq
    unfold Preview.update
    rw [if_pos ho]
    have ht : updateTimeout c s t = s := by unfold updateTimeout; simp [hs]
    rw [ht]
    unfold updateBlink
    rw [hq]
    simp only [PeriodCounter.exceeded]
    by_cases hx : q.lastReset + q.interval < t
    · simp [hx]
    · simp only [hx, if_false, Bool.false_eq_true]
      cases s; simp_all
  intro a b
  have ha : a = _ := upd st p t1 hs ho hp
  rw [if_pos h1] at ha
  have hb := fun t => upd a { p with lastReset := t1 } t (by rw [ha]; exact hs) (by rw [ha]; exact ho) (by rw [ha])
  have hb2 : b = _ := hb t2
  rw [if_pos h2] at hb2
  refine ⟨?_, ?_, by rw [ha], by rw [hb2, ha]⟩
  · cases hst : st.blinkState with
    | false => left; rw [hb2, ha]; simp [hst]
    | true => right; rw [hb2, ha]; simp [hst]
  · intro t ht
    show (Preview.update c a t).textColor = _
    rw [hb t, if_neg (by simp only; omega)]

/-- C68 fails if a blinking preview ends by its timeout: the label can keep the blinking color. -/
theorem C68_blink_left : (Preview.run exPreview { content := "Rig" }
    [.preview 1000 { text := "a", timeout := some 500, blink := some 300, blinkColor := ⟨1, 2, 3⟩ },
      .update 1250, .update 1501, .update 5000, .update 9000]).1.textColor = ⟨1, 2, 3⟩ ∧
    (Preview.run exPreview { content := "Rig" }
    [.preview 1000 { text := "a", timeout := some 500, blink := some 300, blinkColor := ⟨1, 2, 3⟩ },
      .update 1250, .update 1501, .update 5000, .update 9000]).1.text = "Rig" := by decide +kernel

/-! ### C69 -/

/-- C69. The preview of a value in 0..max shows a percentage in 0..100. -/
theorem C69_percentage (name : String) (v m : Int) (hm : 0 < m) (hv : 0 ≤ v ∧ v ≤ m) :
    ∃ n : Int, 0 ≤ n ∧ n ≤ 100 ∧
      mappingText name v m = (if name = "" then "" else name ++ ": ") ++ toString n ++ "%" := by
  have hmr : (0 : Rat) < (m : Rat) := by exact_mod_cast hm
  have h0 : (0 : Rat) ≤ (v : Rat) * 100 / (m : Rat) := by
    refine rat_div_nonneg hmr ?_
    have : (0 : Rat) ≤ (v : Rat) := by exact_mod_cast hv.1
    grind
  have h1 : (v : Rat) * 100 / (m : Rat) ≤ (100 : Int) := by
    have h2 : (v : Rat) * 100 / (m : Rat) ≤ (m : Rat) * 100 / (m : Rat) := by
      refine rat_div_le_div hmr ?_
      have : (v : Rat) ≤ (m : Rat) := by exact_mod_cast hv.2
      grind
    have h3 : (m : Rat) * 100 / (m : Rat) = 100 := by
      have hne : (m : Rat) ≠ 0 := by grind
      rw [Rat.mul_comm, Rat.div_def, Rat.mul_assoc, Rat.mul_inv_cancel _ hne, Rat.mul_one]
    rw [h3] at h2
    exact h2
  refine ⟨pyRound ((v : Rat) * 100 / m), pyRound_nonneg h0, ?_, rfl⟩
  have := pyRound_mono h1
  rwa [pyRound_intCast] at this

/-- C69. 0 shows 0% and the maximum shows 100%. -/
theorem C69_ends (name : String) (m : Int) (hm : 0 < m) :
    mappingText name 0 m = (if name = "" then "" else name ++ ": ") ++ "0%" ∧
    mappingText name m m = (if name = "" then "" else name ++ ": ") ++ "100%" := by
  have hmr : (m : Rat) ≠ 0 := by
    have : (0 : Rat) < (m : Rat) := by exact_mod_cast hm
    grind
  have h0 : ((0 : Int) : Rat) * 100 / (m : Rat) = ((0 : Int) : Rat) := by
    rw [Rat.div_def, Rat.intCast_zero, Rat.zero_mul, Rat.zero_mul]
  have h1 : (m : Rat) * 100 / (m : Rat) = ((100 : Int) : Rat) := by
    rw [Rat.mul_comm, Rat.div_def, Rat.mul_assoc, Rat.mul_inv_cancel _ hmr, Rat.mul_one]; rfl
  unfold mappingText
  rw [h0, h1, pyRound_intCast, pyRound_intCast, String.append_assoc, String.append_assoc]
  exact ⟨rfl, rfl⟩

end PySwitch.Props
