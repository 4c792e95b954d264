import Verif.Spec.Popup

namespace PySwitch.Props
open PySwitch.Popup PySwitch.Popup.Spec

namespace C169

/-- The handlers of the window are those of the open popup. -/
structure Inv (now : Option Nat) (s : State) : Prop where
  shown : ∀ q, s.shown q = (now == some q)
  container : s.container = now.isSome
  keys : s.keys = now.toList
  clicks : s.clicks = now.toList
  timers : s.timers = []

theorem hide_inv {o : Options} {s : State} {p : Nat} {calls : List Call} (h : Inv (some p) s) :
    Inv none ((⟨s.shown, s.container, s.keys, s.clicks, s.timers, calls⟩ : State).hide o p) ∧
    ((⟨s.shown, s.container, s.keys, s.clicks, s.timers, calls⟩ : State).hide o p).calls = calls ++ (if o.onClose p then [Call.closed p] else []) := by
  refine ⟨⟨fun q => ?_, rfl, ?_, ?_, h.timers⟩, ?_⟩
  · simp only [State.hide, h.shown]
    by_cases hq : q = p
    · simp [hq]
    · simp [hq, Ne.symm hq]
  · simp [State.hide, h.keys]
  · simp [State.hide, h.clicks]
  · simp [State.hide]

theorem leave_inv {o : Options} {s : State} {p : Nat} (answer : Nat → Bool) (h : Inv (some p) s) :
    Inv (leave o answer p).1 (s.confirmAndHide o answer p) ∧
    (s.confirmAndHide o answer p).calls = s.calls ++ (leave o answer p).2 := by
  unfold State.confirmAndHide leave
  by_cases hc : o.confirm p = true
  · rw [if_pos hc, if_pos hc]
    by_cases ha : answer p = true
    · rw [if_pos ha]
      simp only [ha, if_true]
      have := hide_inv (o := o) (calls := s.calls ++ [Call.asked p true]) h
      refine ⟨this.1, ?_⟩
      rw [this.2, List.append_assoc]
    · rw [if_neg ha]
      simp only [ha]
      refine ⟨⟨h.shown, h.container, h.keys, h.clicks, h.timers⟩, ?_⟩
      simp
  · rw [if_neg hc, if_neg hc]
    exact hide_inv (calls := s.calls) h

theorem show_inv {o : Options} {now : Option Nat} {s : State} {p : Nat} (h : Inv now s) (hp : now = none ∨ now = some p) :
    Inv (some p) ((s.step o (.show p)).step o .timer) ∧ ((s.step o (.show p)).step o .timer).calls = s.calls := by
  have ht : (s.step o (.show p)).timers = [p] := by simp [State.step, State.show, State.hide, h.timers]
  have hs : (s.step o (.show p)).step o .timer = ⟨(s.step o (.show p)).shown, (s.step o (.show p)).container, (s.step o (.show p)).keys,
      (s.step o (.show p)).clicks ++ [p], [], (s.step o (.show p)).calls⟩ := by
    generalize s.step o (.show p) = t at ht
    simp only [State.step, ht]
  rw [hs]
  refine ⟨⟨fun q => ?_, rfl, ?_, ?_, rfl⟩, ?_⟩
  · simp only [State.step, State.show, State.hide, h.shown]
    by_cases hq : q = p
    · simp [hq]
    · rcases hp with rfl | rfl <;> simp [hq, Ne.symm hq]
  · simp only [State.step, State.show, State.hide, h.keys]
    rcases hp with rfl | rfl <;> simp
  · simp only [State.step, State.show, State.hide, h.clicks]
    rcases hp with rfl | rfl <;> simp
  · simp [State.step, State.show, State.hide]

/-- One event, with the timer of the popup if it is shown. -/
theorem event {o : Options} {now : Option Nat} {s : State} {e : Ev} {es : List Ev} (h : Inv now s) (ha : Alone o now (e :: es)) :
    Inv (step o now e).1 (s.run o (settled [e])) ∧ (s.run o (settled [e])).calls = s.calls ++ (step o now e).2 := by
  have ha := ha.1
  cases e with
  | «show» p =>
    have := show_inv (o := o) h ha
    refine ⟨this.1, ?_⟩
    simp only [step, List.append_nil]
    exact this.2
  | hide p =>
    simp only at ha
    subst ha
    exact hide_inv (o := o) (calls := s.calls) h
  | timer => exact ha.elim
  | escape answer =>
    show Inv _ (s.keys.foldl (State.confirmAndHide o answer) s) ∧ (s.keys.foldl (State.confirmAndHide o answer) s).calls = _
    rw [h.keys]
    cases now with
    | none => exact ⟨h, by simp [step]⟩
    | some p => exact leave_inv answer h
  | enter =>
    cases now with
    | none =>
      refine ⟨⟨h.shown, h.container, h.keys, h.clicks, h.timers⟩, ?_⟩
      simp [settled, State.run, State.step, step, h.keys]
    | some p =>
      refine ⟨⟨h.shown, h.container, h.keys, h.clicks, h.timers⟩, ?_⟩
      by_cases hp : o.onReturn p = true <;> simp [settled, State.run, State.step, step, h.keys, hp]
  | click answer =>
    show Inv _ (s.clicks.foldl (State.confirmAndHide o answer) s) ∧ (s.clicks.foldl (State.confirmAndHide o answer) s).calls = _
    rw [h.clicks]
    cases now with
    | none => exact ⟨h, by simp [step]⟩
    | some p => exact leave_inv answer h
  | cross p answer =>
    have hc : (s.container && s.shown p) = decide (now = some p) := by
      rw [h.container, h.shown]
      cases now with
      | none => simp
      | some q => by_cases hq : q = p <;> simp [hq]
    show Inv _ (s.step o (.cross p answer)) ∧ (s.step o (.cross p answer)).calls = _
    by_cases hp : now = some p
    · subst hp
      have hv := leave_inv (o := o) answer h
      have hs : s.step o (.cross p answer) = s.confirmAndHide o answer p := by
        simp only [State.step, hc, decide_true, if_true]
        by_cases ht : (s.confirmAndHide o answer p).shown p = true
        · rw [if_pos ht]
        · rw [if_neg ht]
          have hn : (leave o answer p).1 = none := by
            cases hl : (leave o answer p).1 with
            | none => rfl
            | some q =>
              have hq : q = p := by
                unfold leave at hl
                split at hl
                · split at hl
                  · simp at hl
                  · simpa using hl.symm
                · simp at hl
              exact absurd (by rw [hv.1.shown, hl, hq]; simp) ht
          have hk := hv.1.clicks
          rw [hn] at hk
          simp [State.click, hk]
      rw [hs]
      simp only [step, if_true]
      exact hv
    · have hs : s.step o (.cross p answer) = s := by simp [State.step, hc, hp]
      rw [hs]
      simp only [step, if_neg hp, List.append_nil]
      exact ⟨h, trivial⟩
  | inside p => exact ⟨h, by simp [settled, State.run, State.step, step]⟩

theorem history {o : Options} : ∀ (es : List Ev) {now : Option Nat} {s : State}, Inv now s → Alone o now es →
    Inv (run o now es).1 (s.run o (settled es)) ∧ (s.run o (settled es)).calls = s.calls ++ (run o now es).2
  | [], _, s, h, _ => ⟨h, by simp [settled, State.run, run]⟩
  | e :: es, now, s, h, ha => by
    have h1 := event h ha
    have h2 := history es h1.1 ha.2
    have hr : s.run o (settled (e :: es)) = (s.run o (settled [e])).run o (settled es) := by
      simp [settled, State.run, List.foldl_append]
    rw [hr]
    refine ⟨h2.1, ?_⟩
    rw [h2.2, h1.2]
    simp [run]

theorem start : Inv none ({} : State) := ⟨fun _ => rfl, rfl, rfl, rfl, rfl⟩

end C169

/-- **C169, calls.** With one popup at a time, in all histories: the callbacks are called just as they should be, and the user sees the popup which
is open and no other. Missing: several popups at a time, and popups which are hidden before their timer, see the witnesses. -/
theorem C169_popup_partial (o : Options) (es : List Ev) (h : Alone o none es) :
    (({} : State).run o (settled es)).calls = (run o none es).2 ∧
    ∀ p, (({} : State).run o (settled es)).visible p = true ↔ (run o none es).1 = some p := by
  have hi := C169.history es C169.start h
  refine ⟨by simpa using hi.2, fun p => ?_⟩
  rw [State.visible, hi.1.container, hi.1.shown]
  cases (run o none es).1 <;> simp

/-- Two popups, the second with a question which is answered with no: first Escape is not confirmed, then the code hides the popup. -/
example :
    let o : Options := ⟨fun p => p == 1, fun _ => true, fun p => p == 0⟩
    let es : List Ev := [.show 0, .enter, .show 0, .inside 0, .click fun _ => false, .show 1, .escape fun _ => false, .cross 1 fun _ => true, .enter]
    Alone o none es ∧ (run o none es).2 = [.returned 0, .closed 0, .asked 1 false, .asked 1 true, .closed 1] := by
  refine ⟨?_, by decide⟩
  simp [Alone, step, leave]

namespace C169

/-- How often has `p` been closed, and how often did it get the answer yes? -/
def Balanced (p : Nat) (l : List Call) : Prop := l.count (.closed p) = l.count (.asked p true)

theorem balanced_confirm {o : Options} {p : Nat} (hc : o.confirm p = true) (hcl : o.onClose p = true) (answer : Nat → Bool) (s : State) (q : Nat)
    (h : Balanced p s.calls) : Balanced p (s.confirmAndHide o answer q).calls := by
  unfold Balanced at *
  unfold State.confirmAndHide
  by_cases hq : q = p
  · subst hq
    rw [if_pos hc]
    by_cases ha : answer q = true
    · simp [ha, State.hide, hcl, h, List.count_append]
    · simp [ha, h, List.count_append]
  · split
    · by_cases ha : answer q = true
      · cases hoc : o.onClose q <;> simp [ha, State.hide, h, hq, hoc, List.count_append]
      · simp [ha, h, hq, List.count_append]
    · cases hoc : o.onClose q <;> simp [State.hide, h, hq, hoc, List.count_append]

theorem balanced_fold {o : Options} {p : Nat} (hc : o.confirm p = true) (hcl : o.onClose p = true) (answer : Nat → Bool) :
    ∀ (l : List Nat) (s : State), Balanced p s.calls → Balanced p (l.foldl (State.confirmAndHide o answer) s).calls
  | [], _, h => h
  | q :: l, s, h => balanced_fold hc hcl answer l _ (balanced_confirm hc hcl answer s q h)

theorem balanced_step {o : Options} {p : Nat} (hc : o.confirm p = true) (hcl : o.onClose p = true) (s : State) (e : Ev)
    (he : ∀ q, e = .hide q → q ≠ p) (h : Balanced p s.calls) : Balanced p (s.step o e).calls := by
  cases e with
  | «show» q => simpa [State.step, State.show, State.hide] using h
  | hide q =>
    have hq := he q rfl
    unfold Balanced at *
    cases hoc : o.onClose q <;> simp [State.step, State.hide, h, hq, hoc, List.count_append]
  | timer =>
    simp only [State.step]
    split <;> exact h
  | escape answer => exact balanced_fold hc hcl answer s.keys s h
  | enter =>
    unfold Balanced at *
    have h1 : ((s.keys.filter o.onReturn).map Call.returned).count (.closed p) = 0 := by
      rw [List.count_eq_zero]; simp
    have h2 : ((s.keys.filter o.onReturn).map Call.returned).count (.asked p true) = 0 := by
      rw [List.count_eq_zero]; simp
    simp [State.step, List.count_append, h1, h2, h]
  | click answer => exact balanced_fold hc hcl answer s.clicks s h
  | cross q answer =>
    simp only [State.step]
    split
    · split
      · exact balanced_confirm hc hcl answer s q h
      · exact balanced_fold hc hcl answer _ _ (balanced_confirm hc hcl answer s q h)
    · exact h
  | inside q => exact h

end C169

/-- **C169, question.** In all histories, also with several popups and in all orders of timers: a popup with a question which is not hidden by the code
is closed just as often as its question has been answered with yes. -/
theorem C169_asked (o : Options) (p : Nat) (hc : o.confirm p = true) (hcl : o.onClose p = true) (es : List Ev) (h : ∀ e ∈ es, ∀ q, e = .hide q → q ≠ p) :
    (({} : State).run o es).calls.count (.closed p) = (({} : State).run o es).calls.count (.asked p true) := by
  have key : ∀ (es : List Ev) (s : State), (∀ e ∈ es, ∀ q, e = .hide q → q ≠ p) → C169.Balanced p s.calls → C169.Balanced p (s.run o es).calls := by
    intro es
    induction es with
    | nil => exact fun _ _ hb => hb
    | cons e es ih =>
      intro s he hb
      exact ih _ (fun e' he' => he e' (List.mem_cons_of_mem _ he')) (C169.balanced_step hc hcl s e (he e (List.mem_cons_self ..)) hb)
  exact key es {} h rfl

/-- Two popups with questions are open at a time; Escape asks both. -/
example :
    let o : Options := ⟨fun _ => true, fun _ => true, fun _ => false⟩
    (({} : State).run o [.show 0, .show 1, .timer, .escape fun p => p == 1, .click fun _ => true]).calls =
      [.asked 0 false, .asked 1 true, .closed 1, .asked 0 true, .closed 0] := by decide

/-- All popups share the container: when the second popup is closed, the first is not visible any more though it has not been asked, and still reacts. -/
theorem C169_container_witness :
    ∃ (o : Options) (es : List Ev), o.confirm 0 = true ∧ (({} : State).run o (settled es)).visible 0 = false ∧
      (({} : State).run o (settled es)).shown 0 = true ∧ (({} : State).run o (settled es)).calls = [.closed 1] ∧
      (({} : State).run o (settled (es ++ [.escape fun _ => true]))).calls = [.closed 1, .asked 0 true, .closed 0] :=
  ⟨⟨fun p => p == 0, fun _ => true, fun _ => false⟩, [.show 0, .show 1, .hide 1], rfl, by decide, by decide, by decide, by decide⟩

/-- The close button of a popup closes the other ones too. -/
theorem C169_cross_witness :
    ∃ (o : Options) (es : List Ev), (({} : State).run o (settled (es ++ [.cross 1 fun _ => true]))).calls = [.closed 1, .closed 0] :=
  ⟨⟨fun _ => false, fun _ => true, fun _ => false⟩, [.show 0, .show 1], by decide⟩

/-- A popup which is hidden before its timer has run is closed a second time by the next click. -/
theorem C169_timer_witness :
    ∃ (o : Options) (es : List Ev), Alone o none es ∧
      (({} : State).run o (es ++ [.timer, .click fun _ => true])).calls = [.closed 0, .closed 0] ∧
      (run o none (es ++ [.click fun _ => true])).2 = [.closed 0] :=
  ⟨⟨fun _ => false, fun _ => true, fun _ => false⟩, [.show 0, .hide 0], by simp [Alone, step], by decide, by decide⟩

/-- A popup which is not open calls its callback when the code hides it. -/
theorem C169_hidden_witness :
    ∃ (o : Options), (({} : State).run o [.hide 0]).calls = [.closed 0] ∧ (({} : State)).visible 0 = false :=
  ⟨⟨fun _ => false, fun _ => true, fun _ => false⟩, by decide, by decide⟩

end PySwitch.Props
