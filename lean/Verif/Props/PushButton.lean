import Verif.Spec.PushButton
/-
Properties C31 and C32: push button actions.
-/
namespace PySwitch.Props
open PySwitch.PushButton PySwitch.PushButton.Spec

/-- C31: one press, from any state (whatever has been fed back before). If the callback feeds back nothing else than the
states it is notified of, the action behaves as documented for its mode: notifications, state while pressed,
state afterwards. -/
theorem C31_press (mode : Mode) (st : State) (p : Press) (fb₁ fb₂ : Option Bool) :
    let x := expected mode st.state (decide (p.released - p.pressed > st.period.interval))
    Confirms x.during fb₁ → Confirms x.after fb₂ →
    let r₁ := step mode st (.push p.pressed fb₁)
    let r₂ := step mode r₁.1 (.release p.released fb₂)
    notified r₁.2 = x.atPress ∧ r₁.1.state = x.during ∧ notified r₂.2 = x.atRelease ∧ r₂.1.state = x.after ∧
      r₂.1.period.interval = st.period.interval := by
  intro x h₁ h₂
  obtain ⟨s, i, l⟩ := st
  have e : (⟨i, p.pressed⟩ : PeriodCounter).exceeded p.released =
      (decide (p.released - p.pressed > i), if decide (p.released - p.pressed > i) then ⟨i, p.released⟩ else ⟨i, p.pressed⟩) := by
    simp only [PeriodCounter.exceeded]
    by_cases h : p.pressed + i < p.released
    · have : p.released - p.pressed > i := by omega
      simp [h, this]
    · have : ¬ p.released - p.pressed > i := by omega
      simp [h, this]
  have hx : x = expected mode s (decide (p.released - p.pressed > i)) := rfl
  clear_value x
  subst hx
  generalize decide (p.released - p.pressed > i) = d at *
  cases d <;> cases mode <;> cases s <;> rcases fb₁ with _ | a <;> rcases fb₂ with _ | b <;>
    simp_all [expected, step, push, release, setState, notified, Confirms, PeriodCounter.reset]

/-- C31: any number of presses, with any hold times: the device is notified of exactly the documented states, in
order, and the last state is the documented one. -/
theorem C31_presses (mode : Mode) (holdTime : Int) (ps : List Press) (st : State)
    (hst : st.period.interval = holdTime) :
    let h := ps.flatMap (fun p => [Event.push p.pressed none, .release p.released none])
    notified (run mode st h).1.flatten = (expectedAll mode holdTime st.state ps).1 ∧
      (run mode st h).2.state = (expectedAll mode holdTime st.state ps).2 := by
  induction ps generalizing st with
  | nil => exact ⟨rfl, rfl⟩
  | cons p ps ih =>
    have hn : ∀ x y : List Eff, notified (x ++ y) = notified x ++ notified y := by
      intro x y; simp [notified]
    have h := C31_press mode st p none none
    rw [hst] at h
    obtain ⟨h1, h2, h3, h4, h5⟩ := h trivial trivial
    obtain ⟨i1, i2⟩ := ih _ h5
    simp only [List.flatMap_cons, List.cons_append, List.nil_append, run, expectedAll, List.flatten_cons, hn]
    rw [h1, h3, i1, i2, h4]
    simp

/-- C31: LATCH toggles: after `n` presses the state is the first one if `n` is even and the opposite if `n` is
odd, and each press notifies the device once. -/
theorem C31_latch (ps : List Press) (st : State) :
    let h := ps.flatMap (fun p => [Event.push p.pressed none, .release p.released none])
    (run .latch st h).2.state = (if ps.length % 2 = 0 then st.state else !st.state) ∧
      (notified (run .latch st h).1.flatten).length = ps.length := by
  obtain ⟨h1, h2⟩ := C31_presses .latch st.period.interval ps st rfl
  simp only at h1 h2 ⊢
  rw [h1, h2]
  clear h1 h2
  generalize st.state = s
  generalize st.period.interval = i
  induction ps generalizing s with
  | nil => simp [expectedAll]
  | cons p ps ih =>
    obtain ⟨a, b⟩ := ih (!s)
    simp only [expectedAll, expected, List.length_append, List.length_cons, List.length_nil, a, b]
    refine ⟨?_, by omega⟩
    by_cases he : ps.length % 2 = 0
    · rw [if_pos he, if_neg (by omega)]
    · rw [if_neg he, if_pos (by omega), Bool.not_not]

/-- C31: MOMENTARY (and MOMENTARY_INVERSE) after any history of events and feedbacks: on (off) after a push, off
(on) after a release, whatever the state was before. -/
theorem C31_momentary (st : State) (h : List Event) (now : Int) :
    (step .momentary (run .momentary st h).2 (.push now none)).1.state = true ∧
    (step .momentary (run .momentary st h).2 (.release now none)).1.state = false ∧
    (step .momentaryInverse (run .momentaryInverse st h).2 (.push now none)).1.state = false ∧
    (step .momentaryInverse (run .momentaryInverse st h).2 (.release now none)).1.state = true := by
  have key : ∀ (s : State) (b : Bool), (setState s b none).1.state = b := by
    intro s b
    simp only [setState]
    split
    · rename_i h; exact h.symm
    · rfl
  exact ⟨key _ _, key _ _, key _ _, key _ _⟩

/-- C31: with NO_STATE_CHANGE, presses never change the state and never notify the device, whatever happens. -/
theorem C31_no_change (st : State) (h : List Event) (hp : ∀ e ∈ h, ∃ now fb, e = .push now fb ∨ e = .release now fb) :
    (run .noStateChange st h).2 = st ∧ (run .noStateChange st h).1.flatten = [] := by
  induction h with
  | nil => exact ⟨rfl, rfl⟩
  | cons e h ih =>
    obtain ⟨now, fb, rfl | rfl⟩ := hp e (by simp) <;>
      simpa [run, step, push, release] using ih (fun e he => hp e (by simp [he]))

example : (run .holdMomentary (initial 600) [.push 1000 none, .release 1200 none, .push 3000 none,
    .release 3700 none, .feedback false, .push 5000 none]).1
    = [[.changed true, .display], [], [.changed false, .display], [.changed true, .display], [],
       [.changed true, .display]] := by decide
example : (expectedAll .holdMomentary 600 false [⟨1000, 1200⟩, ⟨3000, 3700⟩]) = ([true, false, true], true) := by decide

/-- C32: feeding back a state or resetting never notifies the device; the state fed back is taken over. -/
theorem C32_feedback (mode : Mode) (st : State) (s : Bool) (fb : Option Bool) :
    (step mode st (.feedback s)).2 = [] ∧ (step mode st (.feedback s)).1.state = s ∧
    notified (step mode st (.reset fb)).2 = [] ∧ (step mode st (.reset none)).1.state = false := by
  simp [step, notified]

/-- C32: over any history, the events which notify the device are pushes and releases; each notification reports
a state different from the one before the event, and happens at most once per event. The only exception is
ONE_SHOT, which notifies once per push in any case. -/
theorem C32_notified (mode : Mode) (st : State) (e : Event) :
    (notified (step mode st e).2 = [] ∧ (mode ≠ .oneShot → (∀ now fb, e = .push now fb ∨ e = .release now fb →
        (step mode st e).1.state = st.state))) ∨
    (∃ now fb, (e = .push now fb ∨ (e = .release now fb ∧ mode ≠ .oneShot)) ∧ ∃ s, notified (step mode st e).2 = [s] ∧
      (mode = .oneShot ∧ s = true ∨ s = !st.state) ∧ (fb = none → (step mode st e).1.state = s)) := by
  cases e with
  | feedback s => left; simp [step, notified]
  | reset fb => left; simp [step, notified]
  | push now fb =>
    obtain ⟨s, p⟩ := st
    by_cases h : (step mode ⟨s, p⟩ (.push now fb)).2 = []
    · left
      refine ⟨by rw [h]; rfl, ?_⟩
      intro ho now' fb' he
      simp only [Event.push.injEq, reduceCtorEq, or_false] at he
      cases mode <;> cases s <;> simp_all [step, push, setState]
    · right
      refine ⟨now, fb, .inl rfl, ?_⟩
      cases mode <;> cases s <;> simp_all [step, push, setState, notified] <;> (intro hf; simp [hf])
  | release now fb =>
    obtain ⟨s, p⟩ := st
    by_cases h : notified (step mode ⟨s, p⟩ (.release now fb)).2 = []
    · left
      refine ⟨h, ?_⟩
      intro ho now' fb' he
      cases mode <;> cases s <;> simp_all [step, release, setState, notified] <;>
        (cases hx : (p.exceeded now).1 <;> simp_all)
    · right
      refine ⟨now, fb, .inr ⟨rfl, ?_⟩, ?_⟩
      · rintro rfl
        simp [step, release, notified] at h
      · cases mode <;> cases s <;> simp_all [step, release, setState, notified] <;>
          first
          | (intro hf; simp [hf])
          | (cases hx : (p.exceeded now).1 <;> simp_all <;> (intro hf; simp [hf]))

end PySwitch.Props
