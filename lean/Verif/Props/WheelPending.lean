import Verif.Lemmas.WheelPending

/-!
C171 and C172: preselections of several actions of a wheel on one preview display.
-/

namespace PySwitch.Props
open PySwitch.WheelPages PySwitch.WheelPages.Spec
open PySwitch.Encoder (Err Eff)

/-- The display of an action and its preview belong together (`EncoderAction.py:67-79`). -/
def c171Wired (as : List Action) : Prop := ∀ a ∈ as, a.enc.hasPreview = a.label.isSome

namespace C171

theorem uses_iff {as : List Action} {l i : Nat} : uses as l i = true ↔ ∃ a, as[i]? = some a ∧ a.label = some l := by
  unfold uses
  cases as[i]? <;> simp

theorem config_eq {as : List Action} {i : Nat} {a : Action} (h : as[i]? = some a) : config as i = a.enc := by simp [config, h]

theorem uses_preview {as : List Action} (hw : c171Wired as) {l i : Nat} (h : uses as l i = true) : (config as i).hasPreview = true := by
  obtain ⟨a, h1, h2⟩ := uses_iff.mp h
  rw [config_eq h1, hw a (List.mem_of_getElem? h1), h2]
  rfl

theorem no_preview {as : List Action} (hw : c171Wired as) {i : Nat} {a : Action} (ha : as[i]? = some a) (h : a.enc.hasPreview = false) (l : Nat) :
    uses as l i = false := by
  cases hu : uses as l i with
  | false => rfl
  | true => rw [← config_eq ha, uses_preview hw hu] at h; cases h

/-- The invariant for one display: what has been shown last, and what is shown. -/
structure Inv (as : List Action) (l : Nat) (s : WheelPages.State) (x y : Option (Nat × Int)) : Prop where
  pending : ∀ i, uses as l i = true → (config as i).preselect = true → (s.encs i).active = true →
    i ∈ s.clients l ∧ ∃ v, (s.encs i).lastValue = some v ∧ x = some (i, v)
  shown : ∀ i v, y = some (i, v) → uses as l i = true ∧ ((config as i).preselect = true → (s.encs i).active = true ∧ (s.encs i).lastValue = some v)
  clients : ∀ k j, j ∈ s.clients k → uses as k j = true

/-- Some actions have been cancelled, and this has reset the display if it was one of its actions. -/
theorem cancelAll_display {as : List Action} (hw : c171Wired as) (l : Nat) {i : Nat} : ∀ {ks : List Nat} {s s' : WheelPages.State} {es},
    cancelAll (config as) i s ks = .ok (s', es) → ∀ x y,
    lastShown (uses as l) x es = x ∧
    ((display (uses as l) y es = y ∧ (∀ j, uses as l j = true → s'.encs j = s.encs j) ∧ ∀ j, j ∈ ks → j ≠ i → uses as l j = false) ∨
      (display (uses as l) y es = none ∧ ∃ j, j ∈ ks ∧ j ≠ i ∧ uses as l j = true))
  | [], s, s', es, h, x, y => by
    simp only [cancelAll, Except.ok.injEq, Prod.mk.injEq] at h
    rw [← h.1, ← h.2]
    exact ⟨rfl, .inl ⟨rfl, fun _ _ => rfl, fun _ hj => by cases hj⟩⟩
  | k :: ks, s, s', es, h, x, y => by
    simp only [cancelAll] at h
    split at h
    · rename_i hk
      obtain ⟨h1, h2⟩ := cancelAll_display hw l h x y
      refine ⟨h1, ?_⟩
      rcases h2 with ⟨h2, h3, h4⟩ | ⟨h2, j, hj, h3⟩
      · refine .inl ⟨h2, h3, fun j hj hji => ?_⟩
        rcases List.mem_cons.mp hj with rfl | hj
        · exact absurd hk hji
        · exact h4 j hj hji
      · exact .inr ⟨h2, j, List.mem_cons_of_mem _ hj, h3⟩
    · rename_i hk
      cases hc : Encoder.cancel (config as k) (s.encs k) true with
      | error e => rw [hc] at h; simp at h
      | ok r =>
        obtain ⟨st, es1⟩ := r
        rw [hc] at h
        simp only at h
        cases hr : cancelAll (config as) i (s.put k st) ks with
        | error e => rw [hr] at h; simp at h
        | ok r2 =>
          obtain ⟨s2, es2⟩ := r2
          rw [hr] at h
          simp only [Except.ok.injEq, Prod.mk.injEq] at h
          obtain ⟨rfl, rfl⟩ := h
          have hns := cancel_noShow hc
          rw [lastShown_append, display_append, lastShown_none _ _ _ hns]
          cases hu : uses as l k with
          | true =>
            have hd : display (uses as l) y (es1.map fun x => (k, x)) = none :=
              mem_reset_display hu hns (b := true) (by rw [cancel_shape hc, uses_preview hw hu]; simp) y
            obtain ⟨h1, h2⟩ := cancelAll_display hw l hr x none
            rw [hd]
            refine ⟨h1, .inr ⟨?_, k, List.mem_cons_self .., hk, hu⟩⟩
            rcases h2 with ⟨h2, _⟩ | ⟨h2, _⟩ <;> exact h2
          | false =>
            rw [(display_other hu es1 y).1]
            obtain ⟨h1, h2⟩ := cancelAll_display hw l hr x y
            refine ⟨h1, ?_⟩
            rcases h2 with ⟨h2, h3, h4⟩ | ⟨h2, j, hj, h3⟩
            · refine .inl ⟨h2, fun j hj => ?_, fun j hj hji => ?_⟩
              · rw [h3 j hj]
                have : j ≠ k := by intro e; rw [e, hu] at hj; cases hj
                simp [State.put, this]
              · rcases List.mem_cons.mp hj with rfl | hj
                · exact hu
                · exact h4 j hj hji
            · exact .inr ⟨h2, j, List.mem_cons_of_mem _ hj, h3⟩

theorem know_clients {s : WheelPages.State} {l i k j : Nat} : j ∈ (s.know l i).clients k ↔ j ∈ s.clients k ∨ (k = l ∧ j = i) := by
  simp only [State.know]
  by_cases hk : k = l
  · subst hk
    by_cases hi : i ∈ s.clients k
    · simp only [hi, not_true_eq_false, and_false, if_false]
      constructor
      · exact .inl
      · rintro (h | ⟨_, rfl⟩)
        · exact h
        · exact hi
    · simp [hi]
  · simp [hk]

/-- One action processes a position. -/
theorem one_inv {as : List Action} (hw : c171Wired as) {l i : Nat} {a : Action} (ha : as[i]? = some a) {p : Int} {s s' : WheelPages.State} {es}
    (h : one (config as) i a p s = .ok (s', es)) {x y} (hi : Inv as l s x y) :
    Inv as l s' (lastShown (uses as l) x es) (display (uses as l) y es) := by
  obtain ⟨st, es1, s2, es2, ks, hp, hc, henc, -, hcase⟩ := one_ok h
  have hcfg := config_eq ha
  have hst := (cancelAll_state hc).2
  rcases hcase with ⟨v, l', hv, hl', rfl, rfl, rfl⟩ | ⟨hno, rfl, rfl, rfl⟩
  · -- a value is shown
    have hlast : ∃ es0, es1 = es0 ++ [.preview v] ∧ NoShow es0 ∧ (a.enc.preselect = true → st.active = true ∧ st.lastValue = some v) := by
      rcases process_shape hp with ⟨rfl, _⟩ | ⟨rfl, _⟩ | ⟨es0, w, rfl, h1, h2, h3⟩
      · simp at hv
      · simp at hv
      · have hprev : a.enc.hasPreview = true := by rw [hw a (List.mem_of_getElem? ha), hl']; rfl
        rw [if_pos hprev, List.getLast?_concat] at hv
        simp only [Option.some.injEq, Eff.preview.injEq] at hv
        subst hv
        exact ⟨es0, by rw [if_pos hprev], h1, h3⟩
    obtain ⟨es0, rfl, hns, hpre⟩ := hlast
    rw [List.dropLast_concat]
    have hx : lastShown (uses as l) x (es0.map (fun x => (i, x)) ++ es2 ++ [(i, .preview v)]) = if uses as l i then some (i, v) else x := by
      rw [lastShown_append, lastShown_append, lastShown_none _ _ _ hns, (cancelAll_display hw l hc x y).1]
      rfl
    have hy : ∀ y0, display (uses as l) y0 [(i, .preview v)] = if uses as l i then some (i, v) else y0 := fun _ => rfl
    have henci : s2.encs i = st := by
      rw [(hst i).2.1 rfl]; simp [State.put]
    have hcl : s2.clients = s.clients := (cancelAll_state hc).1
    by_cases hl : l' = l
    · subst hl
      have hu : uses as l' i = true := uses_iff.mpr ⟨a, ha, hl'⟩
      rw [hx, if_pos hu, display_append, hy, if_pos hu]
      refine ⟨?_, ?_, ?_⟩
      · intro j hj hjp hact
        have hact : (s2.encs j).active = true := hact
        by_cases hji : j = i
        · subst hji
          refine ⟨know_clients.mpr (.inr ⟨rfl, rfl⟩), v, ?_, rfl⟩
          show (s2.encs j).lastValue = some v
          rw [henci]
          exact (hpre (by rw [← hcfg]; exact hjp)).2
        · exfalso
          have hput : (s.put i st).encs j = s.encs j := by simp [State.put, hji]
          by_cases hmem : j ∈ s.clients l'
          · rw [(hst j).2.2 hji hmem] at hact; cases hact
          · rcases (hst j).1 with h' | h'
            · rw [h', hput] at hact
              exact hmem (hi.pending j hj hjp hact).1
            · rw [h'.2.2.1] at hact; cases hact
      · intro j w hjw
        simp only [Option.some.injEq, Prod.mk.injEq] at hjw
        obtain ⟨rfl, rfl⟩ := hjw
        refine ⟨hu, fun hjp => ?_⟩
        show (s2.encs i).active = true ∧ (s2.encs i).lastValue = some v
        rw [henci]
        exact hpre (by rw [← hcfg]; exact hjp)
      · intro k j hj
        rcases know_clients.mp hj with hj | ⟨rfl, rfl⟩
        · rw [hcl] at hj; exact hi.clients k j hj
        · exact hu
    · have hu : uses as l i = false := by
        cases hu : uses as l i with
        | false => rfl
        | true =>
          obtain ⟨a', h1, h2⟩ := uses_iff.mp hu
          rw [ha] at h1; cases h1
          rw [hl'] at h2; cases h2; exact absurd rfl hl
      have hks : ∀ j, j ∈ s.clients l' → uses as l j = false := by
        intro j hj
        cases huj : uses as l j with
        | false => rfl
        | true =>
          obtain ⟨a1, h1, h2⟩ := uses_iff.mp huj
          obtain ⟨a2, h3, h4⟩ := uses_iff.mp (hi.clients l' j hj)
          rw [h1] at h3; cases h3
          rw [h2] at h4; cases h4; exact absurd rfl hl
      have hsame : display (uses as l) y es2 = y ∧ ∀ j, uses as l j = true → s2.encs j = (s.put i st).encs j := by
        rcases (cancelAll_display hw l hc x y).2 with ⟨h2, h3, _⟩ | ⟨_, j, hj, _, huj⟩
        · exact ⟨h2, h3⟩
        · rw [hks j hj] at huj; cases huj
      have henc' : ∀ j, uses as l j = true → s2.encs j = s.encs j := by
        intro j hj
        rw [hsame.2 j hj]
        have : j ≠ i := by intro e; rw [e, hu] at hj; cases hj
        simp [State.put, this]
      rw [hx, display_append, display_append, hy, (display_other hu es0 y).1, hsame.1, hu]
      simp only [Bool.false_eq_true, if_false]
      refine ⟨?_, ?_, ?_⟩
      · intro j hj hjp hact
        have hact : (s2.encs j).active = true := hact
        rw [henc' j hj] at hact
        obtain ⟨g1, w, g2, g3⟩ := hi.pending j hj hjp hact
        refine ⟨know_clients.mpr (.inl (by rw [hcl]; exact g1)), w, ?_, g3⟩
        show (s2.encs j).lastValue = some w
        rw [henc' j hj]; exact g2
      · intro j w hjw
        obtain ⟨g1, g2⟩ := hi.shown j w hjw
        refine ⟨g1, fun hjp => ?_⟩
        show (s2.encs j).active = true ∧ (s2.encs j).lastValue = some w
        rw [henc' j g1]; exact g2 hjp
      · intro k j hj
        rcases know_clients.mp hj with hj | ⟨rfl, rfl⟩
        · rw [hcl] at hj; exact hi.clients k j hj
        · exact uses_iff.mpr ⟨a, ha, hl'⟩
  · -- nothing is shown
    have hns : NoShow es1 ∧ ((es1 = [] ∧ st.active = (s.encs i).active ∧ st.lastValue = (s.encs i).lastValue) ∨
        (.previewReset true ∈ es1 ∧ st.active = false) ∨ uses as l i = false) := by
      rcases process_shape hp with ⟨rfl, h1, h2⟩ | ⟨rfl, h1, _⟩ | ⟨es0, w, rfl, h1, h2, h3⟩
      · exact ⟨by intro w; simp, .inl ⟨rfl, h1, h2⟩⟩
      · exact ⟨by intro w; simp, .inr (.inl ⟨by simp, h1⟩)⟩
      · cases hprev : a.enc.hasPreview with
        | false => simp only [Bool.false_eq_true, if_false, List.append_nil]; exact ⟨h1, .inr (.inr (no_preview hw ha hprev l))⟩
        | true =>
          exfalso
          have hls : a.label.isSome = true := by rw [← hw a (List.mem_of_getElem? ha), hprev]
          obtain ⟨l', hl'⟩ := Option.isSome_iff_exists.mp hls
          refine hno w l' ⟨?_, hl'⟩
          rw [if_pos hprev, List.getLast?_concat]
    obtain ⟨hns, hcases⟩ := hns
    rw [lastShown_none _ _ _ hns]
    have hother : ∀ j, j ≠ i → (s.put i st).encs j = s.encs j := by intro j hj; simp [State.put, hj]
    have hself : (s.put i st).encs i = st := by simp [State.put]
    refine ⟨?_, ?_, hi.clients⟩
    · intro j hj hjp hact
      by_cases hji : j = i
      · subst hji
        rw [hself] at hact ⊢
        rcases hcases with ⟨rfl, h1, h2⟩ | ⟨_, h1⟩ | h1
        · rw [h1] at hact
          rw [h2]
          exact hi.pending j hj hjp hact
        · rw [h1] at hact; cases hact
        · rw [h1] at hj; cases hj
      · rw [hother j hji] at hact ⊢
        exact hi.pending j hj hjp hact
    · intro j w hjw
      rcases display_noShow (on := uses as l) i es1 hns y with ⟨hd, hnr⟩ | hd
      · rw [hd] at hjw
        obtain ⟨g1, g2⟩ := hi.shown j w hjw
        refine ⟨g1, fun hjp => ?_⟩
        by_cases hji : j = i
        · subst hji
          rw [hself]
          rcases hcases with ⟨rfl, h1, h2⟩ | ⟨h0, h1⟩ | h1
          · rw [h1, h2]; exact g2 hjp
          · exact absurd h0 (hnr g1 true)
          · rw [h1] at g1; cases g1
        · rw [hother j hji]; exact g2 hjp
      · rw [hd] at hjw; cases hjw

theorem all_inv {as : List Action} (hw : c171Wired as) {l : Nat} {on : Nat → Bool} {p : Int} : ∀ (bs : List Action) (i : Nat),
    (∀ k b, bs[k]? = some b → as[i + k]? = some b) → ∀ {s s' : WheelPages.State} {es} {x y}, all (config as) on p i bs s = .ok (s', es) →
    Inv as l s x y → Inv as l s' (lastShown (uses as l) x es) (display (uses as l) y es)
  | [], i, _, s, s', es, x, y, h, hi => by
    simp only [all, Except.ok.injEq, Prod.mk.injEq] at h
    rw [← h.1, ← h.2]
    exact hi
  | b :: bs, i, hget, s, s', es, x, y, h, hi => by
    have hget' : ∀ k b, bs[k]? = some b → as[i + 1 + k]? = some b := by
      intro k b' hk
      have := hget (k + 1) b' (by simpa using hk)
      rw [← this]; congr 1; omega
    rcases all_cons_ok h with ⟨-, h⟩ | ⟨-, s1, es1, es2, h1, h2, rfl⟩
    · exact all_inv hw bs (i + 1) hget' h hi
    · rw [lastShown_append, display_append]
      exact all_inv hw bs (i + 1) hget' h2 (one_inv hw (hget 0 b rfl) h1 hi)

/-- An action is cancelled, or nothing happens. -/
theorem put_inv {as : List Action} {l i : Nat} {s : WheelPages.State} {st : Encoder.State} {es : List Eff} {x y} (hns : NoShow es)
    (hcase : (es = [] ∧ st.active = (s.encs i).active ∧ st.lastValue = (s.encs i).lastValue) ∨
      (st.active = false ∧ (uses as l i = true → ∃ b, .previewReset b ∈ es)))
    (hi : Inv as l s x y) :
    Inv as l (s.put i st) (lastShown (uses as l) x (es.map fun e => (i, e))) (display (uses as l) y (es.map fun e => (i, e))) := by
  rw [lastShown_none _ _ _ hns]
  have hother : ∀ j, j ≠ i → (s.put i st).encs j = s.encs j := by intro j hj; simp [State.put, hj]
  have hself : (s.put i st).encs i = st := by simp [State.put]
  refine ⟨?_, ?_, hi.clients⟩
  · intro j hj hjp hact
    by_cases hji : j = i
    · subst hji
      rw [hself] at hact ⊢
      rcases hcase with ⟨rfl, h1, h2⟩ | ⟨h1, _⟩
      · rw [h1] at hact
        rw [h2]
        exact hi.pending j hj hjp hact
      · rw [h1] at hact; cases hact
    · rw [hother j hji] at hact ⊢
      exact hi.pending j hj hjp hact
  · intro j w hjw
    rcases display_noShow (on := uses as l) i es hns y with ⟨hd, hnr⟩ | hd
    · rw [hd] at hjw
      obtain ⟨g1, g2⟩ := hi.shown j w hjw
      refine ⟨g1, fun hjp => ?_⟩
      by_cases hji : j = i
      · subst hji
        rw [hself]
        rcases hcase with ⟨rfl, h1, h2⟩ | ⟨_, h1⟩
        · rw [h1, h2]; exact g2 hjp
        · obtain ⟨b, hb⟩ := h1 g1
          exact absurd hb (hnr g1 b)
      · rw [hother j hji]; exact g2 hjp
    · rw [hd] at hjw; cases hjw

theorem accept_inv {as : List Action} (hw : c171Wired as) {l i : Nat} {s : WheelPages.State} {st : Encoder.State} {es : List Eff} {x y}
    (h : Encoder.accept (config as i) (s.encs i) = .ok (st, es)) (hi : Inv as l s x y) :
    Inv as l (s.put i st) (lastShown (uses as l) x (es.map fun e => (i, e))) (display (uses as l) y (es.map fun e => (i, e))) := by
  rcases accept_shape h with ⟨h1, rfl⟩ | ⟨v, _, _, h1, _, h2, _, h3⟩
  · exact put_inv (by intro v; simp) (.inl ⟨rfl, by rw [h1], by rw [h1]⟩) hi
  · exact put_inv h2 (.inr ⟨h1, fun hu => ⟨false, h3 (uses_preview hw hu)⟩⟩) hi

theorem cancel_inv {as : List Action} (hw : c171Wired as) {l i : Nat} {s : WheelPages.State} {st : Encoder.State} {es : List Eff} {x y}
    (h : Encoder.cancel (config as i) (s.encs i) true = .ok (st, es)) (hi : Inv as l s x y) :
    Inv as l (s.put i st) (lastShown (uses as l) x (es.map fun e => (i, e))) (display (uses as l) y (es.map fun e => (i, e))) :=
  put_inv (cancel_noShow h) (.inr ⟨(Encoder.cancel_ok h).2.1, fun hu => ⟨true, by rw [cancel_shape h, uses_preview hw hu]; simp⟩⟩) hi

theorem calls_cons_ok {f : Encoder.Config → Encoder.State → Except Err (Encoder.State × List Eff)} {cs} {i : Nat} {is : List Nat}
    {s s' : WheelPages.State} {es} (h : calls f cs s (i :: is) = .ok (s', es)) :
    ∃ st es1 es2, f (cs i) (s.encs i) = .ok (st, es1) ∧ calls f cs (s.put i st) is = .ok (s', es2) ∧ es = es1.map (fun x => (i, x)) ++ es2 := by
  simp only [calls] at h
  cases h1 : f (cs i) (s.encs i) with
  | error e => rw [h1] at h; simp at h
  | ok r =>
    obtain ⟨st, es1⟩ := r
    rw [h1] at h
    simp only at h
    cases h2 : calls f cs (s.put i st) is with
    | error e => rw [h2] at h; simp at h
    | ok r2 =>
      obtain ⟨s2, es2⟩ := r2
      rw [h2] at h
      simp only [Except.ok.injEq, Prod.mk.injEq] at h
      exact ⟨st, es1, es2, rfl, by rw [← h.1, h2], h.2.symm⟩

theorem calls_inv {as : List Action} {l : Nat} {f : Encoder.Config → Encoder.State → Except Err (Encoder.State × List Eff)}
    (hf : ∀ {i : Nat} {s : WheelPages.State} {st es x y}, f (config as i) (s.encs i) = .ok (st, es) → Inv as l s x y →
      Inv as l (s.put i st) (lastShown (uses as l) x (es.map fun e => (i, e))) (display (uses as l) y (es.map fun e => (i, e)))) :
    ∀ (is : List Nat) {s s' : WheelPages.State} {es} {x y}, calls f (config as) s is = .ok (s', es) → Inv as l s x y →
      Inv as l s' (lastShown (uses as l) x es) (display (uses as l) y es)
  | [], s, s', es, x, y, h, hi => by
    simp only [calls, Except.ok.injEq, Prod.mk.injEq] at h
    rw [← h.1, ← h.2]
    exact hi
  | i :: is, s, s', es, x, y, h, hi => by
    obtain ⟨st, es1, es2, h1, h2, rfl⟩ := calls_cons_ok h
    rw [lastShown_append, display_append]
    exact calls_inv hf is h2 (hf h1 hi)

theorem step_inv {as : List Action} (hw : c171Wired as) {l : Nat} {s s' : WheelPages.State} {e : Ev} {es} {x y}
    (h : step as s e = .ok (s', es)) (hi : Inv as l s x y) : Inv as l s' (lastShown (uses as l) x es) (display (uses as l) y es) := by
  cases e with
  | read p on => exact all_inv hw as 0 (fun k b hk => by rw [Nat.zero_add]; exact hk) h hi
  | device i v =>
    simp only [step, Except.ok.injEq, Prod.mk.injEq] at h
    rw [← h.1, ← h.2]
    exact put_inv (es := []) (by intro v; simp) (.inl ⟨rfl, rfl, rfl⟩) hi
  | resetMap i v =>
    simp only [step, Except.ok.injEq, Prod.mk.injEq] at h
    rw [← h.1, ← h.2]
    exact put_inv (es := []) (by intro v; simp) (.inl ⟨rfl, rfl, rfl⟩) hi
  | accept is => exact calls_inv (fun h hi => accept_inv hw h hi) is h hi
  | cancel is => exact calls_inv (fun h hi => cancel_inv hw h hi) is h hi

theorem run_inv {as : List Action} (hw : c171Wired as) {l : Nat} : ∀ (es : List Ev) {s s' : WheelPages.State} {fs} {x y},
    run as s es = .ok (s', fs) → Inv as l s x y → Inv as l s' (lastShown (uses as l) x fs) (display (uses as l) y fs)
  | [], s, s', fs, x, y, h, hi => by
    simp only [run, Except.ok.injEq, Prod.mk.injEq] at h
    rw [← h.1, ← h.2]
    exact hi
  | e :: es, s, s', fs, x, y, h, hi => by
    simp only [run] at h
    cases h1 : step as s e with
    | error x => rw [h1] at h; simp at h
    | ok r =>
      obtain ⟨s1, fs1⟩ := r
      rw [h1] at h
      simp only at h
      cases h2 : run as s1 es with
      | error x => rw [h2] at h; simp at h
      | ok r2 =>
        obtain ⟨s2, fs2⟩ := r2
        rw [h2] at h
        simp only [Except.ok.injEq, Prod.mk.injEq] at h
        obtain ⟨rfl, rfl⟩ := h
        rw [lastShown_append, display_append]
        exact run_inv hw es h2 (step_inv hw h1 hi)

theorem start_inv (as : List Action) (l : Nat) : Inv as l start none none :=
  ⟨fun _ _ _ h => (by cases h), fun _ _ h => (by cases h), fun _ _ h => (by cases h)⟩

theorem sets_append (a b : List (Nat × Eff)) : sets (a ++ b) = sets a ++ sets b := by
  induction a with
  | nil => rfl
  | cons e a ih => obtain ⟨j, e⟩ := e; cases e <;> simp [sets, ih]

theorem sets_map (i : Nat) (es : List Eff) : sets (es.map fun x => (i, x)) = (Encoder.sets es).map fun v => (i, v) := by
  induction es with
  | nil => rfl
  | cons e es ih => cases e <;> simp [sets, Encoder.sets, ih]

/-- If nothing is pending, accepting does nothing. -/
theorem accept_none {as : List Action} : ∀ (is : List Nat) {s s' : WheelPages.State} {es}, calls Encoder.accept (config as) s is = .ok (s', es) →
    (∀ i ∈ is, (config as i).preselect = true ∧ (s.encs i).active = false) → sets es = []
  | [], s, s', es, h, _ => by
    simp only [calls, Except.ok.injEq, Prod.mk.injEq] at h
    rw [← h.2]; rfl
  | i :: is, s, s', es, h, hn => by
    obtain ⟨st, es1, es2, h1, h2, rfl⟩ := calls_cons_ok h
    obtain ⟨hp, ha⟩ := hn i (by simp)
    rcases accept_shape h1 with ⟨rfl, rfl⟩ | ⟨v, _, _, _, hh, _⟩
    · have : s.put i (s.encs i) = s := by
        simp only [State.put]
        congr 1
        funext j
        split
        · rename_i e; rw [e]
        · rfl
      rw [this] at h2
      exact accept_none is h2 fun j hj => hn j (List.mem_cons_of_mem _ hj)
    · rw [hh hp] at ha; cases ha

theorem accept_sets {as : List Action} (hw : c171Wired as) {l : Nat} : ∀ (is : List Nat) {s s' : WheelPages.State} {es} {x y},
    calls Encoder.accept (config as) s is = .ok (s', es) → Inv as l s x y →
    (∀ i ∈ is, uses as l i = true ∧ (config as i).preselect = true) →
    (sets es = [] ∧ ∀ i ∈ is, (s.encs i).active = true → (s.encs i).lastValue = some (-1)) ∨
      ∃ i v, i ∈ is ∧ sets es = [(i, v)] ∧ x = some (i, v) ∧ (s.encs i).active = true ∧ (s.encs i).lastValue = some v
  | [], s, s', es, x, y, h, hi, _ => by
    simp only [calls, Except.ok.injEq, Prod.mk.injEq] at h
    rw [← h.2]; exact .inl ⟨rfl, fun i hi => by cases hi⟩
  | i :: is, s, s', es, x, y, h, hi, hu => by
    obtain ⟨st, es1, es2, h1, h2, rfl⟩ := calls_cons_ok h
    obtain ⟨hul, hup⟩ := hu i (by simp)
    have hacc := h1
    rcases accept_shape h1 with ⟨rfl, rfl⟩ | ⟨v, hv, hv1, hact, hh, hns, hset, _⟩
    · have hput : s.put i (s.encs i) = s := by
        simp only [State.put]
        congr 1
        funext j
        split
        · rename_i e; rw [e]
        · rfl
      rw [hput] at h2
      rcases accept_sets hw is h2 hi (fun j hj => hu j (List.mem_cons_of_mem _ hj)) with ⟨g1, g2⟩ | ⟨j, v, g1, g2⟩
      · refine .inl ⟨g1, fun j hj hja => ?_⟩
        rcases List.mem_cons.mp hj with rfl | hj
        · rcases Encoder.accept_ok hacc with ⟨_, _, hl | hl | ⟨_, hl⟩⟩ | ⟨v, hl, hl1, hs, _⟩
          · obtain ⟨_, w, hw', _⟩ := hi.pending j hul hup hja
            rw [hl] at hw'; cases hw'
          · exact hl
          · rw [hl] at hja; cases hja
          · simp [Encoder.sets] at hs
        · exact g2 j hj hja
      · exact .inr ⟨j, v, List.mem_cons_of_mem _ g1, g2⟩
    · have hia := hh hup
      obtain ⟨_, w, hw1, hw2⟩ := hi.pending i hul hup hia
      rw [hv] at hw1; cases hw1
      right
      refine ⟨i, v, by simp, ?_, hw2, hia, hv⟩
      rw [sets_append, sets_map, hset]
      have hrest : sets es2 = [] := by
        refine accept_none is h2 fun j hj => ⟨(hu j (List.mem_cons_of_mem _ hj)).2, ?_⟩
        by_cases hji : j = i
        · subst hji; simp [State.put, hact]
        · have : (s.put i st).encs j = s.encs j := by simp [State.put, hji]
          rw [this]
          cases hja : (s.encs j).active with
          | false => rfl
          | true =>
            obtain ⟨_, w, _, h4⟩ := hi.pending j (hu j (List.mem_cons_of_mem _ hj)).1 (hu j (List.mem_cons_of_mem _ hj)).2 hja
            rw [hw2] at h4
            simp only [Option.some.injEq, Prod.mk.injEq] at h4
            exact absurd h4.1.symm hji
      rw [hrest]; rfl

theorem preselects_eq {as : List Action} {i : Nat} (h : preselects as i = true) : (config as i).preselect = true := by
  unfold preselects at h
  unfold config
  cases he : as[i]? with
  | none => rw [he] at h; cases h
  | some a => rw [he] at h; exact h

end C171

/-- **C171**, one preselection per display: after any history, pressing an accept button for some actions with preselection on one display
sends at most one value. It is the one which has been shown last there, for the action which has shown it. -/
theorem C171_accept (as : List Action) (hw : c171Wired as) (l : Nat) (es : List Ev) (s s' : WheelPages.State) (fs gs : List (Nat × Eff))
    (h : run as start es = .ok (s, fs)) (is : List Nat) (his : ∀ i ∈ is, uses as l i = true ∧ preselects as i = true)
    (ha : step as s (.accept is) = .ok (s', gs)) :
    sets gs = [] ∨ ∃ i v, i ∈ is ∧ sets gs = [(i, v)] ∧ lastShown (uses as l) none fs = some (i, v) := by
  have hi := C171.run_inv hw es h (C171.start_inv as l)
  rcases C171.accept_sets hw is ha hi (fun i h => ⟨(his i h).1, C171.preselects_eq (his i h).2⟩) with ⟨h1, -⟩ | ⟨i, v, h1, h2, h3, -⟩
  · exact .inl h1
  · exact .inr ⟨i, v, h1, h2, h3⟩

/-- **C171**, what is shown is sent: after any history, if the display shows a value of an action with preselection, pressing its accept button
sends this value (values of -1 are never sent) and nothing else, for whatever other actions of this display the button has been registered. -/
theorem C171_shown (as : List Action) (hw : c171Wired as) (l : Nat) (es : List Ev) (s s' : WheelPages.State) (fs gs : List (Nat × Eff))
    (h : run as start es = .ok (s, fs)) (is : List Nat) (his : ∀ i ∈ is, uses as l i = true ∧ preselects as i = true)
    (ha : step as s (.accept is) = .ok (s', gs)) (i : Nat) (v : Int) (hi : i ∈ is) (hv : v ≠ -1)
    (hd : display (uses as l) none fs = some (i, v)) : sets gs = [(i, v)] := by
  have hinv := C171.run_inv hw es h (C171.start_inv as l)
  obtain ⟨-, hsh⟩ := hinv.shown i v hd
  obtain ⟨h1, h2⟩ := hsh (C171.preselects_eq (his i hi).2)
  rcases C171.accept_sets hw is ha hinv (fun i h => ⟨(his i h).1, C171.preselects_eq (his i h).2⟩) with ⟨g1, g2⟩ | ⟨j, w, g1, g2, g3, g4, g5⟩
  · have := g2 i hi h1
    rw [h2] at this
    simp only [Option.some.injEq] at this
    exact absurd this hv
  · obtain ⟨_, w', hw1, hw2⟩ := hinv.pending i (his i hi).1 (C171.preselects_eq (his i hi).2) h1
    rw [h2] at hw1
    cases hw1
    rw [g3] at hw2
    simp only [Option.some.injEq, Prod.mk.injEq] at hw2
    rw [g2, hw2.1, hw2.2]

/-- Two actions with preselection and one without on the same display. -/
def c171Wheel : List Action :=
  [⟨{ preselect := true, hasPreview := true }, some 0⟩, ⟨{ preselect := true, hasPreview := true, resetMapping := true }, some 0⟩,
    ⟨{ hasPreview := true }, some 0⟩]

/-- The values of all actions are known; then the wheel is turned for action 0 and for action 1. -/
def c171Turns : List Ev :=
  [.device 0 (some 50), .device 1 (some 60), .device 2 (some 70), .cancel [0, 1], .read 10 (fun _ => true), .read 12 (fun i => i == 0),
    .read 15 (fun i => i == 1)]

/-- What is sent by accepting after a history. -/
def c171Sent (as : List Action) (es : List Ev) (is : List Nat) : Option (List (Nat × Int) × Option (Nat × Int) × Option (Nat × Int)) :=
  match run as start es with
  | .error _ => none
  | .ok (s, fs) =>
    match step as s (.accept is) with
    | .error _ => none
    | .ok (_, gs) => some (sets gs, lastShown (uses as 0) none fs, display (uses as 0) none fs)

/-- The hypotheses are met, and only the second preselection is sent. -/
example : c171Wired c171Wheel ∧ (∀ i ∈ [0, 1], uses c171Wheel 0 i = true ∧ preselects c171Wheel i = true) ∧
    c171Sent c171Wheel c171Turns [0, 1] = some ([(1, 65)], some (1, 65), some (1, 65)) := by
  refine ⟨by unfold c171Wired; decide, by decide, by decide +kernel⟩

/-! ### C172: what is sent has been visible -/

/-- A button cancels all actions of the display or none of them, and an accept button only belongs to actions with preselection. -/
def c172Careful (as : List Action) (l : Nat) : Ev → Prop
  | .cancel is => (∀ i ∈ is, uses as l i = false) ∨ ∀ i, uses as l i = true → i ∈ is
  | .accept is => ∀ i ∈ is, preselects as i = true
  | _ => True

namespace C172
open C171

/-- Pending preselections are visible. -/
def Vis (as : List Action) (l : Nat) (s : WheelPages.State) (y : Option (Nat × Int)) : Prop :=
  ∀ i, uses as l i = true → (config as i).preselect = true → (s.encs i).active = true → ∃ v, y = some (i, v)

theorem one_vis {as : List Action} (hw : c171Wired as) {l i : Nat} (hr : ∀ j, uses as l j = true → (config as j).resetMapping = false)
    {a : Action} (ha : as[i]? = some a) {p : Int} {s s' : WheelPages.State} {es}
    (h : one (config as) i a p s = .ok (s', es)) {x y} (hi : Inv as l s x y) (hv : Vis as l s y) : Vis as l s' (display (uses as l) y es) := by
  have hi' := one_inv hw ha h hi
  obtain ⟨st, es1, s2, es2, ks, hp, hc, henc, -, hcase⟩ := one_ok h
  have hcfg := config_eq ha
  rcases hcase with ⟨v, l', hlast, hl', rfl, rfl, rfl⟩ | ⟨hno, rfl, rfl, rfl⟩
  · by_cases hl : l' = l
    · subst hl
      have hu : uses as l' i = true := uses_iff.mpr ⟨a, ha, hl'⟩
      intro j hj hjp hact
      obtain ⟨_, w, _, h4⟩ := hi'.pending j hj hjp hact
      rw [lastShown_append] at h4
      rw [display_append]
      simp only [lastShown, hu, if_true, Option.some.injEq, Prod.mk.injEq] at h4
      simp only [display, hu, if_true]
      exact ⟨v, by rw [← h4.1]⟩
    · have hu : uses as l i = false := by
        cases hu : uses as l i with
        | false => rfl
        | true =>
          obtain ⟨a', h1, h2⟩ := uses_iff.mp hu
          rw [ha] at h1; cases h1
          rw [hl'] at h2; cases h2; exact absurd rfl hl
      have hks : ∀ j, j ∈ s.clients l' → uses as l j = false := by
        intro j hj
        cases huj : uses as l j with
        | false => rfl
        | true =>
          obtain ⟨a1, h1, h2⟩ := uses_iff.mp huj
          obtain ⟨a2, h3, h4⟩ := uses_iff.mp (hi.clients l' j hj)
          rw [h1] at h3; cases h3
          rw [h2] at h4; cases h4; exact absurd rfl hl
      intro j hj hjp hact
      have hact : (s2.encs j).active = true := hact
      rcases (cancelAll_display hw l hc x y).2 with ⟨h2, h3, _⟩ | ⟨_, k, hk, _, huk⟩
      · rw [h3 j hj] at hact
        have hji : j ≠ i := by intro e; rw [e, hu] at hj; cases hj
        have : (s.put i st).encs j = s.encs j := by simp [State.put, hji]
        rw [this] at hact
        obtain ⟨w, hw'⟩ := hv j hj hjp hact
        refine ⟨w, ?_⟩
        rw [display_append, display_append, (display_other hu _ y).1, h2]
        simp only [display, hu, Bool.false_eq_true, if_false]
        exact hw'
      · rw [hks k hk] at huk; cases huk
  · intro j hj hjp hact
    cases hu : uses as l i with
    | false =>
      have hji : j ≠ i := by intro e; rw [e, hu] at hj; cases hj
      have : (s.put i st).encs j = s.encs j := by simp [State.put, hji]
      rw [this] at hact
      rw [(display_other hu es1 y).1]
      exact hv j hj hjp hact
    | true =>
      have hes : es1 = [] ∧ st.active = (s.encs i).active := by
        rcases process_shape hp with ⟨rfl, h1, _⟩ | ⟨_, _, h1, _⟩ | ⟨es0, w, rfl, h1, h2, h3⟩
        · exact ⟨rfl, h1⟩
        · rw [← hcfg, hr i hu] at h1; cases h1
        · exfalso
          have hprev : a.enc.hasPreview = true := by rw [← hcfg]; exact uses_preview hw hu
          obtain ⟨a', h4, h5⟩ := uses_iff.mp hu
          rw [ha] at h4; cases h4
          refine hno w l ⟨?_, h5⟩
          rw [if_pos hprev, List.getLast?_concat]
      rw [hes.1]
      show ∃ v, y = some (j, v)
      refine hv j hj hjp ?_
      by_cases hji : j = i
      · subst hji
        have : (s.put j st).encs j = st := by simp [State.put]
        rw [this, hes.2] at hact
        exact hact
      · have : (s.put i st).encs j = s.encs j := by simp [State.put, hji]
        rw [this] at hact
        exact hact

theorem all_vis {as : List Action} (hw : c171Wired as) {l : Nat} (hr : ∀ j, uses as l j = true → (config as j).resetMapping = false)
    {on : Nat → Bool} {p : Int} : ∀ (bs : List Action) (i : Nat),
    (∀ k b, bs[k]? = some b → as[i + k]? = some b) → ∀ {s s' : WheelPages.State} {es} {x y}, all (config as) on p i bs s = .ok (s', es) →
    Inv as l s x y → Vis as l s y → Vis as l s' (display (uses as l) y es)
  | [], i, _, s, s', es, x, y, h, _, hv => by
    simp only [all, Except.ok.injEq, Prod.mk.injEq] at h
    rw [← h.1, ← h.2]
    exact hv
  | b :: bs, i, hget, s, s', es, x, y, h, hi, hv => by
    have hget' : ∀ k b, bs[k]? = some b → as[i + 1 + k]? = some b := by
      intro k b' hk
      have := hget (k + 1) b' (by simpa using hk)
      rw [← this]; congr 1; omega
    rcases all_cons_ok h with ⟨-, h⟩ | ⟨-, s1, es1, es2, h1, h2, rfl⟩
    · exact all_vis hw hr bs (i + 1) hget' h hi hv
    · rw [display_append]
      exact all_vis hw hr bs (i + 1) hget' h2 (one_inv hw (hget 0 b rfl) h1 hi) (one_vis hw hr (hget 0 b rfl) h1 hi hv)

theorem accept_vis {as : List Action} (hw : c171Wired as) {l : Nat} : ∀ (is : List Nat) {s s' : WheelPages.State} {es} {x y},
    calls Encoder.accept (config as) s is = .ok (s', es) → Inv as l s x y → (∀ i ∈ is, preselects as i = true) → Vis as l s y →
    Vis as l s' (display (uses as l) y es)
  | [], s, s', es, x, y, h, hi, _, hv => by
    simp only [calls, Except.ok.injEq, Prod.mk.injEq] at h
    rw [← h.1, ← h.2]
    exact hv
  | i :: is, s, s', es, x, y, h, hi, hu, hv => by
    obtain ⟨st, es1, es2, h1, h2, rfl⟩ := calls_cons_ok h
    rw [display_append]
    refine accept_vis hw is h2 (accept_inv hw h1 hi) (fun j hj => hu j (List.mem_cons_of_mem _ hj)) ?_
    have hup := preselects_eq (hu i (by simp))
    intro j hj hjp hact
    rcases accept_shape h1 with ⟨rfl, rfl⟩ | ⟨v, _, _, hina, hh, hns, _, _⟩
    · refine hv j hj hjp ?_
      by_cases hji : j = i
      · subst hji
        have : (s.put j (s.encs j)).encs j = s.encs j := by simp [State.put]
        rw [this] at hact; exact hact
      · have : (s.put i (s.encs i)).encs j = s.encs j := by simp [State.put, hji]
        rw [this] at hact; exact hact
    · by_cases hji : j = i
      · subst hji
        have : (s.put j st).encs j = st := by simp [State.put]
        rw [this, hina] at hact; cases hact
      · have : (s.put i st).encs j = s.encs j := by simp [State.put, hji]
        rw [this] at hact
        cases hui : uses as l i with
        | false =>
          rw [(display_other hui es1 y).1]
          exact hv j hj hjp hact
        | true =>
          obtain ⟨_, w1, _, g1⟩ := hi.pending i hui hup (hh hup)
          obtain ⟨_, w2, _, g2⟩ := hi.pending j hj hjp hact
          rw [g1] at g2
          simp only [Option.some.injEq, Prod.mk.injEq] at g2
          exact absurd g2.1.symm hji

/-- Actions of other displays are cancelled. -/
theorem cancel_other {as : List Action} {l : Nat} : ∀ (is : List Nat) {s s' : WheelPages.State} {es} {y},
    calls (fun c st => Encoder.cancel c st true) (config as) s is = .ok (s', es) → (∀ i ∈ is, uses as l i = false) → Vis as l s y →
    Vis as l s' (display (uses as l) y es)
  | [], s, s', es, y, h, _, hv => by
    simp only [calls, Except.ok.injEq, Prod.mk.injEq] at h
    rw [← h.1, ← h.2]
    exact hv
  | i :: is, s, s', es, y, h, hu, hv => by
    obtain ⟨st, es1, es2, h1, h2, rfl⟩ := calls_cons_ok h
    rw [display_append, (display_other (hu i (by simp)) es1 y).1]
    refine cancel_other is h2 (fun j hj => hu j (List.mem_cons_of_mem _ hj)) ?_
    intro j hj hjp hact
    have hji : j ≠ i := by intro e; rw [e, hu i (by simp)] at hj; cases hj
    have : (s.put i st).encs j = s.encs j := by simp [State.put, hji]
    rw [this] at hact
    exact hv j hj hjp hact

/-- All actions which are called are not pending afterwards. -/
theorem cancel_all {cs : Nat → Encoder.Config} : ∀ (is : List Nat) {s s' : WheelPages.State} {es},
    calls (fun c st => Encoder.cancel c st true) cs s is = .ok (s', es) → ∀ j, (j ∈ is ∨ (s.encs j).active = false) → (s'.encs j).active = false
  | [], s, s', es, h, j, hj => by
    simp only [calls, Except.ok.injEq, Prod.mk.injEq] at h
    rw [← h.1]
    rcases hj with hj | hj
    · cases hj
    · exact hj
  | i :: is, s, s', es, h, j, hj => by
    obtain ⟨st, es1, es2, h1, h2, rfl⟩ := calls_cons_ok h
    refine cancel_all is h2 j ?_
    by_cases hji : j = i
    · subst hji
      right
      have : (s.put j st).encs j = st := by simp [State.put]
      rw [this]
      exact (Encoder.cancel_ok h1).2.1
    · have : (s.put i st).encs j = s.encs j := by simp [State.put, hji]
      rw [this]
      rcases hj with hj | hj
      · rcases List.mem_cons.mp hj with rfl | hj
        · exact absurd rfl hji
        · exact .inl hj
      · exact .inr hj

theorem run_vis {as : List Action} (hw : c171Wired as) {l : Nat} (hr : ∀ j, uses as l j = true → (config as j).resetMapping = false) :
    ∀ (es : List Ev), (∀ e ∈ es, c172Careful as l e) → ∀ {s s' : WheelPages.State} {fs} {x y},
    run as s es = .ok (s', fs) → Inv as l s x y → Vis as l s y → Vis as l s' (display (uses as l) y fs)
  | [], _, s, s', fs, x, y, h, _, hv => by
    simp only [run, Except.ok.injEq, Prod.mk.injEq] at h
    rw [← h.1, ← h.2]
    exact hv
  | e :: es, hce, s, s', fs, x, y, h, hi, hv => by
    simp only [run] at h
    cases h1 : step as s e with
    | error x => rw [h1] at h; simp at h
    | ok r =>
      obtain ⟨s1, fs1⟩ := r
      rw [h1] at h
      simp only at h
      cases h2 : run as s1 es with
      | error x => rw [h2] at h; simp at h
      | ok r2 =>
        obtain ⟨s2, fs2⟩ := r2
        rw [h2] at h
        simp only [Except.ok.injEq, Prod.mk.injEq] at h
        obtain ⟨rfl, rfl⟩ := h
        rw [display_append]
        refine run_vis hw hr es (fun e he => hce e (List.mem_cons_of_mem _ he)) h2 (step_inv hw h1 hi) ?_
        have hc := hce e (by simp)
        cases e with
        | read p on => exact all_vis hw hr as 0 (fun k b hk => by rw [Nat.zero_add]; exact hk) h1 hi hv
        | device i v =>
          simp only [step, Except.ok.injEq, Prod.mk.injEq] at h1
          rw [← h1.1, ← h1.2]
          intro j hj hjp hact
          refine hv j hj hjp ?_
          simp only [State.put] at hact
          split at hact
          · rename_i e; rw [e]; exact hact
          · exact hact
        | resetMap i v =>
          simp only [step, Except.ok.injEq, Prod.mk.injEq] at h1
          rw [← h1.1, ← h1.2]
          intro j hj hjp hact
          refine hv j hj hjp ?_
          simp only [State.put] at hact
          split at hact
          · rename_i e; rw [e]; exact hact
          · exact hact
        | accept is => exact accept_vis hw is h1 hi hc hv
        | cancel is =>
          rcases hc with hc | hc
          · exact cancel_other is h1 hc hv
          · intro j hj hjp hact
            rw [cancel_all is h1 j (.inl (hc j hj))] at hact
            cases hact

end C172

/-- **C172**: after any history in which cancel buttons belong to all actions of the display, what an accept button sends is visible on the display
at this time. Missing: the actions must not have reset mappings, see the witnesses. -/
theorem C172_visible_partial (as : List Action) (hw : c171Wired as) (l : Nat)
    (hr : ∀ (i : Nat) (a : Action), as[i]? = some a → a.label = some l → a.enc.resetMapping = false)
    (es : List Ev) (hc : ∀ e ∈ es, c172Careful as l e) (s s' : WheelPages.State) (fs gs : List (Nat × Eff))
    (h : run as start es = .ok (s, fs)) (is : List Nat) (his : ∀ i ∈ is, uses as l i = true ∧ preselects as i = true)
    (ha : step as s (.accept is) = .ok (s', gs)) (i : Nat) (v : Int) (hs : (i, v) ∈ sets gs) :
    display (uses as l) none fs = some (i, v) := by
  have hr' : ∀ j, uses as l j = true → (config as j).resetMapping = false := by
    intro j hj
    obtain ⟨a, h1, h2⟩ := C171.uses_iff.mp hj
    rw [C171.config_eq h1]; exact hr j a h1 h2
  have hinv := C171.run_inv hw es h (C171.start_inv as l)
  have hvis := C172.run_vis hw hr' es hc h (C171.start_inv as l) (fun _ _ _ h => by cases h)
  rcases C171.accept_sets hw is ha hinv (fun i h => ⟨(his i h).1, C171.preselects_eq (his i h).2⟩) with ⟨g1, -⟩ | ⟨j, w, g1, g2, g3, g4, g5⟩
  · rw [g1] at hs; cases hs
  · rw [g2] at hs
    simp only [List.mem_singleton, Prod.mk.injEq] at hs
    obtain ⟨rfl, rfl⟩ := hs
    obtain ⟨w, hw'⟩ := hvis i (his i g1).1 (C171.preselects_eq (his i g1).2) g4
    obtain ⟨-, g6⟩ := hinv.shown i w hw'
    have := (g6 (C171.preselects_eq (his i g1).2)).2
    rw [g5] at this
    cases this
    exact hw'

/-- Two actions with preselection; one of them has a reset mapping. -/
def c172Rig : List Action :=
  [⟨{ preselect := true, hasPreview := true }, some 0⟩, ⟨{ preselect := true, hasPreview := true, resetMapping := true }, some 0⟩]

/-- Two actions with preselection, without reset mappings: the hypotheses are met, and something is sent. -/
def c172Wheel : List Action := [⟨{ preselect := true, hasPreview := true }, some 0⟩, ⟨{ preselect := true, hasPreview := true }, some 0⟩]

example : c171Wired c172Wheel ∧ (∀ e ∈ c171Turns, c172Careful c172Wheel 0 e) ∧
    c171Sent c172Wheel c171Turns [0, 1] = some ([(1, 65)], some (1, 65), some (1, 65)) := by
  refine ⟨by unfold c171Wired; decide, ?_, by decide +kernel⟩
  intro e he
  simp only [c171Turns, List.mem_cons, List.not_mem_nil, or_false] at he
  rcases he with rfl | rfl | rfl | rfl | rfl | rfl | rfl
  all_goals first | trivial | skip
  right
  intro i hi
  match i, hi with
  | 0, _ => simp
  | 1, _ => simp
  | i + 2, hi => simp [uses, c172Wheel] at hi

/-- **C172** does not hold with reset mappings: action 0 has a pending value on the display. When the rig changes, action 1 resets the display
although nothing of it is shown, and the value of action 0 is still sent by accepting. -/
theorem C172_rig_witness :
    c171Sent c172Rig [.device 0 (some 50), .device 1 (some 127), .resetMap 1 (some 3), .cancel [0, 1], .read 10 (fun _ => true),
      .read 12 (fun _ => true)] [0, 1] = some ([(0, 52)], some (0, 52), some (0, 52)) ∧
    c171Sent c172Rig [.device 0 (some 50), .device 1 (some 127), .resetMap 1 (some 3), .cancel [0, 1], .read 10 (fun _ => true),
      .read 12 (fun _ => true), .resetMap 1 (some 4), .read 12 (fun _ => true)] [0, 1] = some ([(0, 52)], some (0, 52), none) := by
  refine ⟨?_, ?_⟩ <;> decide +kernel

/-- **C172** does not hold if each action has its own cancel button: the one of action 1 makes the pending value of action 0 invisible, but it
is still sent by accepting. -/
theorem C172_cancel_witness :
    c171Sent c172Wheel [.device 0 (some 50), .device 1 (some 60), .cancel [0, 1], .read 10 (fun _ => true), .read 12 (fun i => i == 0),
      .cancel [1]] [0, 1] = some ([(0, 52)], some (0, 52), none) := by decide +kernel

end PySwitch.Props
