import Verif.Spec.WheelPages
import Verif.Lemmas.Encoder

/-!
Lemmas about a wheel with several actions.
-/

namespace PySwitch.WheelPages
open PySwitch.Encoder (Err Eff limit)
open PySwitch.WheelPages.Spec

theorem sent_append (i : Nat) (a b : List (Nat × Eff)) : sent i (a ++ b) = sent i a ++ sent i b := by
  induction a with
  | nil => rfl
  | cons x a ih =>
    obtain ⟨j, e⟩ := x
    cases e <;> simp only [List.cons_append, sent, ih]
    split <;> simp

theorem sent_map_self (i : Nat) (es : List Eff) : sent i (es.map fun x => (i, x)) = Encoder.sets es := by
  induction es with
  | nil => rfl
  | cons x es ih => cases x <;> simp [sent, Encoder.sets, ih]

theorem sent_map_other {i j : Nat} (h : j ≠ i) (es : List Eff) : sent i (es.map fun x => (j, x)) = [] := by
  induction es with
  | nil => rfl
  | cons x es ih => cases x <;> simp [sent, h, ih]

theorem cancelAll_sent {cs i} : ∀ {ks : List Nat} {s s' : State} {es}, cancelAll cs i s ks = .ok (s', es) → ∀ j, sent j es = []
  | [], s, s', es, h, j => by
    simp only [cancelAll, Except.ok.injEq, Prod.mk.injEq] at h
    rw [← h.2]; rfl
  | k :: ks, s, s', es, h, j => by
    simp only [cancelAll] at h
    split at h
    · exact cancelAll_sent h j
    · cases hc : Encoder.cancel (cs k) (s.encs k) true with
      | error e => rw [hc] at h; simp at h
      | ok r =>
        obtain ⟨st, es1⟩ := r
        rw [hc] at h
        simp only at h
        cases hr : cancelAll cs i (s.put k st) ks with
        | error e => rw [hr] at h; simp at h
        | ok r2 =>
          obtain ⟨s2, es2⟩ := r2
          rw [hr] at h
          simp only [Except.ok.injEq, Prod.mk.injEq] at h
          rw [← h.2, sent_append, cancelAll_sent hr j, List.append_nil]
          by_cases hj : k = j
          · subst hj; rw [sent_map_self, (Encoder.cancel_ok hc).1]
          · exact sent_map_other hj _

/-- What cancelling does to the state of an action. -/
def Cancelled (st st' : Encoder.State) : Prop :=
  st'.value = st.value ∧ st'.lastPos = st.lastPos ∧ st'.active = false

theorem cancelAll_state {cs i} : ∀ {ks : List Nat} {s s' : State} {es}, cancelAll cs i s ks = .ok (s', es) →
    s'.clients = s.clients ∧ ∀ j, (s'.encs j = s.encs j ∨ ((s'.encs j).value = (s.encs j).value ∧ (s'.encs j).lastPos = (s.encs j).lastPos ∧
      (s'.encs j).active = false ∧ Encoder.getValue (cs j) (s.encs j) = .ok (s'.encs j).lastValue)) ∧
      (j = i → s'.encs j = s.encs j) ∧ (j ≠ i → j ∈ ks → (s'.encs j).active = false)
  | [], s, s', es, h => by
    simp only [cancelAll, Except.ok.injEq, Prod.mk.injEq] at h
    rw [← h.1]
    exact ⟨rfl, fun j => ⟨.inl rfl, fun _ => rfl, fun _ hm => by cases hm⟩⟩
  | k :: ks, s, s', es, h => by
    simp only [cancelAll] at h
    split at h
    · rename_i hk
      obtain ⟨h1, h2⟩ := cancelAll_state h
      refine ⟨h1, fun j => ⟨(h2 j).1, (h2 j).2.1, fun hj hm => (h2 j).2.2 hj ?_⟩⟩
      rcases List.mem_cons.mp hm with rfl | hm
      · exact absurd hk hj
      · exact hm
    · rename_i hk
      cases hc : Encoder.cancel (cs k) (s.encs k) true with
      | error e => rw [hc] at h; simp at h
      | ok r =>
        obtain ⟨st, es1⟩ := r
        rw [hc] at h
        simp only at h
        cases hr : cancelAll cs i (s.put k st) ks with
        | error e => rw [hr] at h; simp at h
        | ok r2 =>
          obtain ⟨s2, es2⟩ := r2
          rw [hr] at h
          simp only [Except.ok.injEq, Prod.mk.injEq] at h
          obtain ⟨h1, h2⟩ := cancelAll_state hr
          obtain ⟨-, c2, c3, c4, c5, -⟩ := Encoder.cancel_ok hc
          rw [← h.1]
          refine ⟨h1, fun j => ?_⟩
          obtain ⟨g1, g2, g3⟩ := h2 j
          by_cases hj : j = k
          · subst hj
            have hput : (s.put j st).encs j = st := by simp [State.put]
            rw [hput] at g1
            refine ⟨.inr ?_, fun he => absurd he hk, fun _ _ => ?_⟩
            · rcases g1 with g1 | ⟨g1, g4, g5, g6⟩
              · rw [g1]; exact ⟨c4, c5, c2, c3⟩
              · refine ⟨g1.trans c4, g4.trans c5, g5, ?_⟩
                rw [← g6]
                simp only [Encoder.getValue, c4]
            · rcases g1 with g1 | ⟨_, _, g5, _⟩
              · rw [g1]; exact c2
              · exact g5
          · have hput : (s.put k st).encs j = s.encs j := by simp [State.put, hj]
            rw [hput] at g1 g2
            refine ⟨g1, g2, fun hji hm => g3 hji ?_⟩
            rcases List.mem_cons.mp hm with rfl | hm
            · exact absurd rfl hj
            · exact hm

theorem cancelAll_fine {cs : Nat → Encoder.Config} (hs : ∀ k, (cs k).scale = none) {i} :
    ∀ (ks : List Nat) (s : State), ∃ s' es, cancelAll cs i s ks = .ok (s', es)
  | [], s => ⟨s, [], rfl⟩
  | k :: ks, s => by
    simp only [cancelAll]
    split
    · exact cancelAll_fine hs ks s
    · have : Encoder.cancel (cs k) (s.encs k) true = .ok ({ s.encs k with active := false, lastValue := (s.encs k).value },
          if (cs k).hasPreview then [.previewReset true] else []) := by simp only [Encoder.cancel, Encoder.getValue, hs]
      rw [this]
      simp only
      obtain ⟨s', es, h⟩ := cancelAll_fine hs ks (s.put k { s.encs k with active := false, lastValue := (s.encs k).value })
      rw [h]
      exact ⟨_, _, rfl⟩

/-- All that is known about `one`. -/
theorem one_ok {cs i a p} {s s' : State} {es} (h : one cs i a p s = .ok (s', es)) :
    ∃ st es1 s2 es2 ks, Encoder.process a.enc (s.encs i) p = .ok (st, es1) ∧ cancelAll cs i (s.put i st) ks = .ok (s2, es2) ∧ s'.encs = s2.encs ∧
      (∀ j, sent j es = sent j (es1.map fun x => (i, x))) ∧
      ((∃ v l, es1.getLast? = some (.preview v) ∧ a.label = some l ∧ ks = s.clients l ∧
          s' = s2.know l i ∧ es = es1.dropLast.map (fun x => (i, x)) ++ es2 ++ [(i, .preview v)]) ∨
        ((∀ v l, ¬ (es1.getLast? = some (.preview v) ∧ a.label = some l)) ∧ ks = [] ∧ s' = s.put i st ∧ es = es1.map (fun x => (i, x)))) := by
  unfold one at h
  cases hp : Encoder.process a.enc (s.encs i) p with
  | error e => rw [hp] at h; simp at h
  | ok r =>
    obtain ⟨st, es1⟩ := r
    rw [hp] at h
    simp only at h
    by_cases hlab : ∃ v l, es1.getLast? = some (.preview v) ∧ a.label = some l
    · obtain ⟨v, l, hv, hl⟩ := hlab
      rw [hv, hl] at h
      simp only at h
      cases hc : cancelAll cs i (s.put i st) (s.clients l) with
      | error e => rw [hc] at h; simp at h
      | ok r2 =>
        obtain ⟨s2, es2⟩ := r2
        rw [hc] at h
        simp only [Except.ok.injEq, Prod.mk.injEq] at h
        refine ⟨st, es1, s2, es2, s.clients l, rfl, hc, by rw [← h.1]; rfl, fun j => ?_, .inl ⟨v, l, hv, hl, rfl, h.1.symm, h.2.symm⟩⟩
        rw [← h.2, sent_append, sent_append, cancelAll_sent hc j, List.append_nil]
        obtain ⟨ys, hys⟩ := List.getLast?_eq_some_iff.mp hv
        rw [hys, List.dropLast_concat, List.map_append, sent_append]
        rfl
    · have h' : s.put i st = s' ∧ es1.map (fun x => (i, x)) = es := by
        split at h
        · rename_i v l hv hl
          exact absurd ⟨v, l, hv, hl⟩ hlab
        · simpa only [Except.ok.injEq, Prod.mk.injEq] using h
      refine ⟨st, es1, s.put i st, [], [], rfl, rfl, by rw [← h'.1], fun j => by rw [← h'.2], .inr ⟨?_, rfl, h'.1.symm, h'.2.symm⟩⟩
      intro v l hvl
      exact hlab ⟨v, l, hvl⟩

theorem all_cons_ok {cs on p i a as} {s s' : State} {es} (h : all cs on p i (a :: as) s = .ok (s', es)) :
    (on i = false ∧ all cs on p (i + 1) as s = .ok (s', es)) ∨
    (on i = true ∧ ∃ s1 es1 es2, one cs i a p s = .ok (s1, es1) ∧ all cs on p (i + 1) as s1 = .ok (s', es2) ∧ es = es1 ++ es2) := by
  simp only [all] at h
  cases ho : on i
  · rw [ho] at h; exact .inl ⟨rfl, h⟩
  · rw [ho] at h
    simp only [Bool.not_true, Bool.false_eq_true, if_false] at h
    cases h1 : one cs i a p s with
    | error e => rw [h1] at h; simp at h
    | ok r =>
      obtain ⟨s1, es1⟩ := r
      rw [h1] at h
      simp only at h
      cases h2 : all cs on p (i + 1) as s1 with
      | error e => rw [h2] at h; simp at h
      | ok r2 =>
        obtain ⟨s2, es2⟩ := r2
        rw [h2] at h
        simp only [Except.ok.injEq, Prod.mk.injEq] at h
        exact .inr ⟨rfl, s1, es1, es2, rfl, by rw [← h.1, h2], h.2.symm⟩

end PySwitch.WheelPages
