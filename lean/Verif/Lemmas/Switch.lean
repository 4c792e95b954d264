import Verif.Spec.Switch
namespace PySwitch.Switch
open Spec

theorem run_append (c : Config) (st : State) (a b : List Sample) :
    run c st (a ++ b) = ((run c st a).1 ++ (run c (run c st a).2 b).1, (run c (run c st a).2 b).2) := by
  induction a generalizing st with
  | nil => rfl
  | cons s a ih => simp only [List.cons_append, run, ih]

theorem run_length (c : Config) (st : State) (a : List Sample) : (run c st a).1.length = a.length := by
  induction a generalizing st with
  | nil => rfl
  | cons s a ih => simp only [run, List.length_cons, ih]

theorem exceeded_fst (p : PeriodCounter) (t : Int) :
    (p.exceeded t).1 = decide (t - p.lastReset > p.interval) := by
  unfold PeriodCounter.exceeded
  split <;> rename_i h <;> simp <;> omega

theorem exceeded_true {p : PeriodCounter} {t : Int} (h : t - p.lastReset > p.interval) :
    p.exceeded t = (true, { p with lastReset := t }) := by
  unfold PeriodCounter.exceeded
  rw [if_pos (by omega)]

theorem exceeded_false {p : PeriodCounter} {t : Int} (h : ¬ t - p.lastReset > p.interval) :
    p.exceeded t = (false, p) := by
  unfold PeriodCounter.exceeded
  rw [if_neg (by omega)]

/-- No press in progress and nothing left over from earlier ones. -/
def Clean (holdTime : Int) (st : State) : Prop :=
  st.pushedState = false ∧ st.holdActive = false ∧ st.holdWasActive = false ∧ st.period.interval = holdTime

theorem clean_initial (holdTime : Int) : Clean holdTime (initial holdTime) := ⟨rfl, rfl, rfl, rfl⟩

theorem process_idle (c : Config) (st : State) (s : Sample) (hs : s.pushed = false)
    (hp : st.pushedState = false) : process c st s = (st, []) := by
  simp [process, hs, hp]

/-- A press with hold actions starts. -/
theorem process_press (c : Config) (hc : c.actionsHold ≠ []) (H : Int) (st : State) (hst : Clean H st)
    (s : Sample) (hs : s.pushed = true) (ho : s.override = none) :
    process c st s = (⟨true, true, false, ⟨H, s.now⟩⟩, []) := by
  obtain ⟨h1, h2, h3, h4⟩ := hst
  obtain ⟨p, a, w, per⟩ := st
  simp only at h1 h2 h3 h4
  subst h1 h2 h3 h4
  simp [process, hs, processPushed, ho, pushActions, hc, PeriodCounter.reset]

theorem process_held_fire (c : Config) (st : State) (s : Sample) (hs : s.pushed = true)
    (ha : st.holdActive = true) (ht : s.now - st.period.lastReset > st.period.interval) :
    process c st s = ({ st with
      period := { st.period with lastReset := s.now },
      holdActive := c.holdRepeat, holdWasActive := if c.holdRepeat then true else st.holdWasActive },
      click c.actionsHold s) := by
  obtain ⟨p, a, w, per⟩ := st
  simp only at ha ht
  subst ha
  simp only [process, hs, checkHold, exceeded_true ht, fireHold, click]
  cases c.holdRepeat <;> simp

theorem process_held_wait (c : Config) (st : State) (s : Sample) (hs : s.pushed = true)
    (hp : st.pushedState = true)
    (ht : st.holdActive = true → ¬ s.now - st.period.lastReset > st.period.interval) :
    process c st s = (st, []) := by
  obtain ⟨p, a, w, per⟩ := st
  simp only at hp ht
  subst hp
  cases a with
  | false => simp [process, hs, processPushed]
  | true =>
    have := ht rfl
    simp [process, hs, checkHold, exceeded_false this, processPushed]

/-- Rest of a press without repeat: the hold actions have been fired already. -/
theorem run_after_fire (c : Config) (hc : c.actionsHold ≠ []) (st : State) (hp : st.pushedState = true)
    (ha : st.holdActive = false) (held : List Sample) (last : Sample)
    (hh : ∀ s ∈ held, s.pushed = true) (hl : last.pushed = false) (ho : last.override = none) :
    run c st (held ++ [last])
      = ((held ++ [last]).map (fun _ => []), { st with pushedState := false }) := by
  induction held with
  | nil =>
    obtain ⟨p, a, w, per⟩ := st
    simp only at hp ha
    subst hp ha
    simp [run, process, hl, ho, release, hc]
  | cons s held ih =>
    have e := process_held_wait c st s (hh s (by simp)) hp (by simp [ha])
    simp only [List.cons_append, run, e, List.map_cons]
    rw [ih (fun x hx => hh x (by simp [hx]))]

theorem run_press_noRepeat (c : Config) (hc : c.actionsHold ≠ []) (hr : c.holdRepeat = false)
    (st : State) (hp : st.pushedState = true) (ha : st.holdActive = true) (hw : st.holdWasActive = false)
    (held : List Sample) (last : Sample)
    (hh : ∀ s ∈ held, s.pushed = true) (hl : last.pushed = false) (ho : last.override = none) :
    (run c st (held ++ [last])).1
        = shortOrLong c.actions c.actionsHold st.period.interval st.period.lastReset (held ++ [last])
      ∧ Clean st.period.interval (run c st (held ++ [last])).2 := by
  induction held with
  | nil =>
    obtain ⟨p, a, w, per⟩ := st
    simp only at hp ha hw
    subst hp ha hw
    simp only [List.nil_append, run, process, hl, shortOrLong]
    by_cases ht : last.now - per.lastReset > per.interval
    · simp [ho, release, hc, checkHold, exceeded_true ht, hr, ht, fireHold, click, Clean]
    · simp [ho, release, hc, checkHold, exceeded_false ht, ht, releaseActions, click, Clean]
  | cons s held ih =>
    have hs := hh s (by simp)
    by_cases ht : s.now - st.period.lastReset > st.period.interval
    · have e := process_held_fire c st s hs ha ht
      rw [hr] at e
      simp only [List.cons_append, run, e, shortOrLong, if_pos ht]
      have := run_after_fire c hc { st with
        period := { st.period with lastReset := s.now }, holdActive := false,
        holdWasActive := if false then true else st.holdWasActive } hp rfl held last
        (fun x hx => hh x (by simp [hx])) hl ho
      rw [this]
      simp [Clean, hw]
    · have e := process_held_wait c st s hs hp (fun _ => ht)
      simp only [List.cons_append, run, e, shortOrLong, if_neg ht]
      obtain ⟨i1, i2⟩ := ih (fun x hx => hh x (by simp [hx]))
      refine ⟨?_, i2⟩
      rw [i1]
      simp

theorem run_press_repeat (c : Config) (hc : c.actionsHold ≠ []) (hr : c.holdRepeat = true)
    (st : State) (hp : st.pushedState = true) (ha : st.holdActive = true)
    (held : List Sample) (last : Sample)
    (hh : ∀ s ∈ held, s.pushed = true) (hl : last.pushed = false) (ho : last.override = none) :
    (run c st (held ++ [last])).1
        = repeated c.actions c.actionsHold st.period.interval st.period.lastReset st.holdWasActive
            (held ++ [last])
      ∧ (last.now - lastFire st.period.interval st.period.lastReset held ≤ st.period.interval →
          Clean st.period.interval (run c st (held ++ [last])).2) := by
  induction held generalizing st with
  | nil =>
    obtain ⟨p, a, w, per⟩ := st
    simp only at hp ha
    subst hp ha
    simp only [List.nil_append, run, process, hl, repeated, lastFire]
    by_cases ht : last.now - per.lastReset > per.interval
    · refine ⟨?_, fun h => absurd ht (by omega)⟩
      simp [ho, release, hc, checkHold, exceeded_true ht, hr, ht, fireHold, click]
    · cases w
      · simp [ho, release, hc, checkHold, exceeded_false ht, ht, releaseActions, click, Clean]
      · simp [ho, release, hc, checkHold, exceeded_false ht, ht, Clean]
  | cons s held ih =>
    have hs := hh s (by simp)
    by_cases ht : s.now - st.period.lastReset > st.period.interval
    · have e := process_held_fire c st s hs ha ht
      rw [hr] at e
      simp only [List.cons_append, run, e, repeated, if_pos ht, lastFire, if_true]
      obtain ⟨i1, i2⟩ := ih ⟨st.pushedState, true, true, ⟨st.period.interval, s.now⟩⟩ hp rfl
        (fun x hx => hh x (by simp [hx]))
      exact ⟨by rw [i1], i2⟩
    · have e := process_held_wait c st s hs hp (fun _ => ht)
      simp only [List.cons_append, run, e, repeated, if_neg ht, lastFire]
      obtain ⟨i1, i2⟩ := ih st hp ha (fun x hx => hh x (by simp [hx]))
      refine ⟨?_, i2⟩
      rw [i1]
      simp

end PySwitch.Switch
