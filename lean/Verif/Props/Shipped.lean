import Verif.Lemmas.ShippedUse
/-
C131, C132: the foot switches of the shipped configuration.
-/
namespace PySwitch.Props
open PySwitch PySwitch.Wire PySwitch.Shipped PySwitch.Shipped.Spec

/-- C131. In every history, whatever is written belongs to the switch which has just been processed: an effect switch only
writes messages of its slot, and so on. Besides, any switch can leave the tuner while it is on. Reports of the device, and the loss
of the connection, write nothing. -/
theorem C131_own (hist : List Event) (e : Event) :
    let st := (run initial hist).2
    (∀ k p now, e = .process k p now → ∀ m ∈ (step st e).2, m ∈ mayWrite k ∨ (st.ov.on = true ∧ m = tuner false)) ∧
    ((∀ k p now, e ≠ .process k p now) → (step st e).2 = []) := by
  have h := any_step (inv_run inv_initial hist) e
  exact ⟨h.own, h.silent⟩

/-- C131. In every history, the application knows if the tuner is on, from what the device has reported and what it has written
itself. -/
theorem C131_tuner_known (hist : List Event) :
    (run initial hist).2.ov.on = tunerOn false (hist.zip (run initial hist).1) := by
  have : ∀ (es : List Event) st, Shipped.Inv st → (run st es).2.ov.on = tunerOn st.ov.on (es.zip (run st es).1) := by
    intro es
    induction es with
    | nil => intro st _; rfl
    | cons e es ih =>
      intro st h
      have ha := any_step h e
      show (run (step st e).1 es).2.ov.on = _
      rw [ih _ ha.inv, ha.on]
      rfl
  exact this hist initial inv_initial

/-- C131. The switches 1 to 4, with the tuner off: a press switches the effect on or off, the opposite of what the LEDs show. As long
as the switch stays down nothing more is written for it, whatever else happens. When it is released it switches the effect again, if
and only if more than 600 milliseconds have passed since it was pressed. -/
theorem C131_effect (hist mid : List Event) (k : Nat) (hk : k < 4) (t0 t1 : Int) :
    let st := (run initial hist).2
    let s1 := (step st (.process k true t0)).1
    let s2 := (run s1 mid).2
    AtRest k st → st.ov.on = false → (∀ x ∈ seen k mid, x.1 = true) → s2.ov.on = false →
    ∃ b b', st.acts.lit k = some b ∧ (step st (.process k true t0)).2 = [effect k (!b)] ∧
      writtenBy k s1 mid = [] ∧
      s2.acts.lit k = some b' ∧ (step s2 (.process k false t1)).2 = if t1 - t0 > 600 then [effect k (!b')] else [] := by
  intro st s1 s2 ⟨sw, hs, hp, ha⟩ hon hmid hon2
  have hi : Shipped.Inv st := inv_run inv_initial hist
  obtain ⟨c, hc, hca, hch⟩ := fx_switch hk
  obtain ⟨sw0, hs0, hok⟩ := hi.sw k c hc
  rw [hs] at hs0
  cases hs0
  have e1 := step_own hon hc hs (plain_press hch ha hp t0) (by
    intro e he; rw [hca] at he; simp at he; exact Or.inl ⟨_, he⟩)
  rw [hca] at e1
  have hacts : ActsOk (⟨⟨false, st.ov.pushedBefore, st.ov.switches.set k ⟨true, false, sw.holdWasActive, sw.period⟩⟩, st.acts⟩ : State).ov.on st.acts := by
    have := hi.acts; rw [hon] at this; exact this
  obtain ⟨f1, f2, _⟩ := call_fx_push (st := ⟨⟨false, st.ov.pushedBefore, st.ov.switches.set k ⟨true, false, sw.holdWasActive, sw.period⟩⟩, st.acts⟩) hacts hk t0
  obtain ⟨g1, _, _⟩ := call_ok (st := ⟨⟨false, st.ov.pushedBefore, st.ov.switches.set k ⟨true, false, sw.holdWasActive, sw.period⟩⟩, st.acts⟩) hacts t0 k true
  have e1' : step st (.process k true t0) =
      call ⟨⟨false, st.ov.pushedBefore, st.ov.switches.set k ⟨true, false, sw.holdWasActive, sw.period⟩⟩, st.acts⟩ t0 k true := by
    rw [e1]; simp [perform]
  rw [← e1'] at f1 f2 g1
  have hin : k < st.ov.switches.length := (List.getElem?_eq_some_iff.mp hs).1
  have hsw1 : s1.ov.switches[k]? = some ⟨true, false, sw.holdWasActive, sw.period⟩ := by
    show (step st (.process k true t0)).1.ov.switches[k]? = _
    rw [g1.switches]; simp [hin]
  have hi1 : Shipped.Inv s1 := (any_step hi _).inv
  obtain ⟨w1, w2, w3⟩ := still_run hc mid (fun on x hx => by
    have := hmid x hx
    rw [this]
    exact plain_down (sw := ⟨true, false, sw.holdWasActive, sw.period⟩) rfl rfl on x.2) s1 hi1 hsw1
  have hi2 : Shipped.Inv s2 := inv_run hi1 mid
  have e2 := step_own hon2 hc w2 (plain_release hch (sw := ⟨true, false, sw.holdWasActive, sw.period⟩) rfl t1) (by
    intro e he; rw [hca] at he; simp at he; exact Or.inr ⟨_, he⟩)
  rw [hca] at e2
  have hacts2 : ActsOk (⟨⟨false, s2.ov.pushedBefore, s2.ov.switches.set k ⟨false, false, false, sw.period⟩⟩, s2.acts⟩ : State).ov.on s2.acts := by
    have := hi2.acts; rw [hon2] at this; exact this
  obtain ⟨r1, _⟩ := call_fx_release (st := ⟨⟨false, s2.ov.pushedBefore, s2.ov.switches.set k ⟨false, false, false, sw.period⟩⟩, s2.acts⟩) hacts2 hk t1
  have e2' : step s2 (.process k false t1) =
      call ⟨⟨false, s2.ov.pushedBefore, s2.ov.switches.set k ⟨false, false, false, sw.period⟩⟩, s2.acts⟩ t1 k false := by
    rw [e2]; simp [perform]
  rw [← e2'] at r1
  refine ⟨_, _, (hi.acts.fx k hk).lit hon, f1, w1, (hi2.acts.fx k hk).lit hon2, ?_⟩
  rw [r1]
  have : (s2.acts.fx k).period.lastReset = t0 := by
    rw [w3.period hk]
    show (((step st (.process k true t0)).1.acts.fx k).period).lastReset = t0
    rw [f2]
  rw [this]

/-- C131. If the slot is loaded with an effect, the LEDs show the new state as soon as the switch has been pressed. -/
theorem C131_effect_led (hist : List Event) (k : Nat) (hk : k < 4) (t0 : Int) :
    let st := (run initial hist).2
    AtRest k st → st.ov.on = false → Effects.categoryOf (st.acts.fx k).cb.fxtype ≠ Effects.CATEGORY_NONE →
    ∃ b, st.acts.lit k = some b ∧ (step st (.process k true t0)).1.acts.lit k = some (!b) := by
  intro st ⟨sw, hs, hp, ha⟩ hon hcat
  have hi : Shipped.Inv st := inv_run inv_initial hist
  obtain ⟨c, hc, hca, hch⟩ := fx_switch hk
  have e1 := step_own hon hc hs (plain_press hch ha hp t0) (by
    intro e he; rw [hca] at he; simp at he; exact Or.inl ⟨_, he⟩)
  rw [hca] at e1
  have hacts : ActsOk (⟨⟨false, st.ov.pushedBefore, st.ov.switches.set k ⟨true, false, sw.holdWasActive, sw.period⟩⟩, st.acts⟩ : State).ov.on st.acts := by
    have := hi.acts; rw [hon] at this; exact this
  obtain ⟨_, _, f3⟩ := call_fx_push (st := ⟨⟨false, st.ov.pushedBefore, st.ov.switches.set k ⟨true, false, sw.holdWasActive, sw.period⟩⟩, st.acts⟩) hacts hk t0
  have g := call_ok (st := ⟨⟨false, st.ov.pushedBefore, st.ov.switches.set k ⟨true, false, sw.holdWasActive, sw.period⟩⟩, st.acts⟩) hacts t0 k true
  have e1' : step st (.process k true t0) =
      call ⟨⟨false, st.ov.pushedBefore, st.ov.switches.set k ⟨true, false, sw.holdWasActive, sw.period⟩⟩, st.acts⟩ t0 k true := by
    rw [e1]; simp [perform]
  rw [← e1'] at f3 g
  refine ⟨_, (hi.acts.fx k hk).lit hon, ?_⟩
  have h1 := (g.1.acts.fx k hk).lit (g.2.2.2.1 (by omega))
  rw [h1, f3 hcat]

/-- C131. The switches A, B, C, D and DOWN, with the tuner off: for every history of the switch and whatever else happens in between,
each use of the switch writes what is expected, in that order: B, C and D select rigs 2, 3 and 4 with pressed and released; A and
DOWN select rigs 1 and 5 when used for at most 600 milliseconds, and otherwise the previous and next bank. -/
theorem C131_rig (hist es : List Event) (k : Nat) (hk : 5 ≤ k ∧ k ≤ 9) (uses : List Use) :
    let st := (run initial hist).2
    AtRest k st → TunerIs false st es → seen k es = uses.flatMap Use.seen →
    writtenBy k st es = uses.flatMap (rigUse k) := by
  intro st ⟨sw, hs, hp, ha⟩ ht hseen
  have hi : Shipped.Inv st := inv_run inv_initial hist
  obtain ⟨c, hc, _⟩ := rig_switch hk
  obtain ⟨sw0, hs0, hok⟩ := hi.sw k c hc
  rw [hs] at hs0
  cases hs0
  rw [rig_local hk hc es st hi ht sw hs, hseen, rig_uses hk hc uses sw ⟨hok, hp, ha⟩]

namespace C131

/-- What the switch UP does from its press on. -/
theorem up_pressed (hist mid : List Event) (t0 : Int) (hr : AtRest 4 (run initial hist).2) (hon : (run initial hist).2.ov.on = false)
    (hmid : ∀ x ∈ seen 4 mid, x.1 = true ∧ x.2 - t0 ≤ 600) :
    (step (run initial hist).2 (.process 4 true t0)).2 = [] ∧
    writtenBy 4 (step (run initial hist).2 (.process 4 true t0)).1 mid = [] ∧
    (run (step (run initial hist).2 (.process 4 true t0)).1 mid).2.ov.switches[4]? = some ⟨true, true, false, ⟨600, t0⟩⟩ := by
  obtain ⟨sw, hs, hp, ha⟩ := hr
  have hi : Shipped.Inv (run initial hist).2 := inv_run inv_initial hist
  have hc : switches[4]? = some { actions := [4, 5], actionsHold := [6] } := rfl
  obtain ⟨sw0, hs0, hok⟩ := hi.sw 4 _ hc
  rw [hs] at hs0
  cases hs0
  have hpe : sw.period.reset t0 = ⟨600, t0⟩ := by unfold PeriodCounter.reset; rw [hok.interval]
  have e1 := step_own hon hc hs (hold_press (by simp) ha hp t0) (by simp)
  rw [hpe, hok.was] at e1
  have hin : 4 < (run initial hist).2.ov.switches.length := (List.getElem?_eq_some_iff.mp hs).1
  have hs1 : (step (run initial hist).2 (.process 4 true t0)).1.ov.switches[4]? = some ⟨true, true, false, ⟨600, t0⟩⟩ := by
    rw [e1]; simp [perform, hin]
  obtain ⟨w1, w2, _⟩ := still_run hc mid (fun on x hx => by
    obtain ⟨m1, m2⟩ := hmid x hx
    rw [m1, hold_down rfl (sw := ⟨true, true, false, ⟨600, t0⟩⟩) rfl rfl rfl, if_neg (by simp only; omega)]) _ (any_step hi _).inv hs1
  exact ⟨by rw [e1]; rfl, w1, w2⟩

end C131
open C131

/-- C131. The switch UP, with the tuner off, used for at most 600 milliseconds: nothing is written until it is released, and then a
tap. -/
theorem C131_tap (hist mid : List Event) (t0 t1 : Int) :
    let st := (run initial hist).2
    let s1 := (step st (.process 4 true t0)).1
    let s2 := (run s1 mid).2
    AtRest 4 st → st.ov.on = false → (∀ x ∈ seen 4 mid, x.1 = true ∧ x.2 - t0 ≤ 600) → s2.ov.on = false → t1 - t0 ≤ 600 →
    (step st (.process 4 true t0)).2 = [] ∧ writtenBy 4 s1 mid = [] ∧ (step s2 (.process 4 false t1)).2 = tap := by
  intro st s1 s2 hr hon hmid hon2 ht
  obtain ⟨a1, a2, a3⟩ := up_pressed hist mid t0 hr hon hmid
  refine ⟨a1, a2, ?_⟩
  have hi2 : Shipped.Inv s2 := inv_run (any_step (inv_run inv_initial hist) _).inv mid
  obtain ⟨r1, _⟩ := hold_release (c := { actions := [4, 5], actionsHold := [6] }) (by simp) rfl
    (sw := ⟨true, true, false, ⟨600, t0⟩⟩) rfl rfl rfl rfl t1
  rw [if_neg (by simp only; omega)] at r1
  have hc : switches[4]? = some { actions := [4, 5], actionsHold := [6] } := rfl
  obtain ⟨l, e2⟩ := step_own' hon2 hc a3 r1 (by
    intro e he; simp at he; rcases he with rfl | rfl | rfl | rfl
    · exact Or.inl ⟨_, rfl⟩
    · exact Or.inr ⟨_, rfl⟩
    · exact Or.inl ⟨_, rfl⟩
    · exact Or.inr ⟨_, rfl⟩)
  have hacts2 : ∀ pb l, ActsOk (⟨⟨false, pb, l⟩, s2.acts⟩ : State).ov.on s2.acts := by
    intro pb l
    have := hi2.acts; rw [hon2] at this; exact this
  rw [e2, click_up]
  exact (tap_click (hacts2 _ _) hi2.quiet t1).2

/-- C131. The switch UP, with the tuner off, held for more than 600 milliseconds: as soon as this is seen, while it is down or when it
is released, the tuner is switched on, once. -/
theorem C131_tuner (hist mid : List Event) (t0 t1 : Int) (p : Bool) :
    let st := (run initial hist).2
    let s1 := (step st (.process 4 true t0)).1
    let s2 := (run s1 mid).2
    AtRest 4 st → st.ov.on = false → (∀ x ∈ seen 4 mid, x.1 = true ∧ x.2 - t0 ≤ 600) → s2.ov.on = false → t1 - t0 > 600 →
    (step st (.process 4 true t0)).2 = [] ∧ writtenBy 4 s1 mid = [] ∧ (step s2 (.process 4 p t1)).2 = [tuner true] ∧
    (step s2 (.process 4 p t1)).1.ov.on = true := by
  intro st s1 s2 hr hon hmid hon2 ht
  obtain ⟨a1, a2, a3⟩ := up_pressed hist mid t0 hr hon hmid
  refine ⟨a1, a2, ?_⟩
  have hi2 : Shipped.Inv s2 := inv_run (any_step (inv_run inv_initial hist) _).inv mid
  have hc : switches[4]? = some { actions := [4, 5], actionsHold := [6] } := rfl
  have r1 : (Switch.process { actions := [4, 5], actionsHold := [6] } ⟨true, true, false, ⟨600, t0⟩⟩ (sampleOf false p t1)).2 =
      [.push 6, .release 6] := by
    cases p with
    | false =>
      obtain ⟨r1, _⟩ := hold_release (c := { actions := [4, 5], actionsHold := [6] }) (by simp) rfl
        (sw := ⟨true, true, false, ⟨600, t0⟩⟩) rfl rfl rfl rfl t1
      rw [if_pos (by simp only; omega)] at r1
      exact r1
    | true =>
      rw [hold_down rfl (sw := ⟨true, true, false, ⟨600, t0⟩⟩) rfl rfl rfl, if_pos (by simp only; omega)]
      rfl
  obtain ⟨l, e2⟩ := step_own' hon2 hc a3 r1 (by
    intro e he; simp at he; rcases he with rfl | rfl
    · exact Or.inl ⟨_, rfl⟩
    · exact Or.inr ⟨_, rfl⟩)
  have hacts2 : ∀ pb l, ActsOk (⟨⟨false, pb, l⟩, s2.acts⟩ : State).ov.on s2.acts := by
    intro pb l
    have := hi2.acts; rw [hon2] at this; exact this
  rw [e2]
  exact tuner_click (hacts2 _ _) (hi2.off hon2) t1

namespace C131

/-- A history: slot B is loaded with a distortion and reported as on, the rig is reported, and switch 1 has been used. -/
def hist : List Event :=
  [.effectType 1 33, .effectState 1 1, .rig 7, .process 0 true 1000, .process 0 false 1100]

/-- Others are used in the meantime, and the device reports something. -/
def mid : List Event :=
  [.process 2 true 2010, .process 1 true 2020, .effectState 3 1, .process 2 false 2700, .process 1 true 2710]

theorem atRest (k : Nat) (hk : k < 11) : AtRest k (run initial hist).2 := by
  rcases k with _ | _ | _ | _ | _ | _ | _ | _ | _ | _ | _ | k
  all_goals first | omega | exact ⟨_, rfl, rfl, rfl⟩

end C131

/-- Switch 2 is held: off, and on again. -/
example : ∃ b b', (run initial C131.hist).2.acts.lit 1 = some b ∧
    (step (run initial C131.hist).2 (.process 1 true 2000)).2 = [effect 1 (!b)] ∧
    writtenBy 1 (step (run initial C131.hist).2 (.process 1 true 2000)).1 C131.mid = [] ∧
    (run (step (run initial C131.hist).2 (.process 1 true 2000)).1 C131.mid).2.acts.lit 1 = some b' ∧
    (step (run (step (run initial C131.hist).2 (.process 1 true 2000)).1 C131.mid).2 (.process 1 false 2800)).2 =
      if (2800 : Int) - 2000 > 600 then [effect 1 (!b')] else [] :=
  C131_effect C131.hist C131.mid 1 (by decide) 2000 2800 (C131.atRest 1 (by decide)) (by decide) (by decide) (by decide)

example : (run initial (C131.hist ++ .process 1 true 2000 :: C131.mid ++ [.process 1 false 2800])).1 =
    [[], [], [], [cc 17 1], [], [cc 18 0], [cc 19 1], [], [], [cc 19 1], [], [cc 18 1]] := by decide

example : ∃ b, (run initial C131.hist).2.acts.lit 1 = some b ∧
    (step (run initial C131.hist).2 (.process 1 true 2000)).1.acts.lit 1 = some (!b) :=
  C131_effect_led C131.hist 1 (by decide) 2000 (C131.atRest 1 (by decide)) (by decide) (by decide)

/-- Switch A is used shortly, then held, with switch B in between. -/
def C131.used : List Event :=
  [.process 5 true 2000, .process 6 true 2010, .process 5 true 2100, .process 5 false 2200, .process 5 false 2300, .process 6 false 2310,
   .process 5 true 3000, .process 5 true 3500, .rig 3, .process 5 true 3700, .process 5 true 3800, .process 5 false 3900]

example : writtenBy 5 (run initial C131.hist).2 C131.used =
    [Use.press 2000 [2100] 2200, .idle 2300, .press 3000 [3500, 3700, 3800] 3900].flatMap (rigUse 5) :=
  C131_rig C131.hist C131.used 5 (by decide) _ (C131.atRest 5 (by decide))
    ⟨rfl, rfl, rfl, rfl, rfl, rfl, rfl, rfl, rfl, rfl, rfl, rfl, trivial⟩ (by decide)

example : [Use.press 2000 [2100] 2200, .idle 2300, .press 3000 [3500, 3700, 3800] 3900].flatMap (rigUse 5) =
    [cc 50 1, cc 50 0, cc 49 0] := by decide

example : (step (run initial C131.hist).2 (.process 4 true 2000)).2 = [] ∧
    writtenBy 4 (step (run initial C131.hist).2 (.process 4 true 2000)).1 [.process 4 true 2600, .rig 3] = [] ∧
    (step (run (step (run initial C131.hist).2 (.process 4 true 2000)).1 [.process 4 true 2600, .rig 3]).2 (.process 4 false 2600)).2 = tap :=
  C131_tap C131.hist [.process 4 true 2600, .rig 3] 2000 2600 (C131.atRest 4 (by decide)) (by decide) (by decide) (by decide) (by decide)

example : (step (run initial C131.hist).2 (.process 4 true 2000)).2 = [] ∧
    writtenBy 4 (step (run initial C131.hist).2 (.process 4 true 2000)).1 [.process 4 true 2600, .rig 3] = [] ∧
    (step (run (step (run initial C131.hist).2 (.process 4 true 2000)).1 [.process 4 true 2600, .rig 3]).2 (.process 4 true 2601)).2 = [tuner true] ∧
    (step (run (step (run initial C131.hist).2 (.process 4 true 2000)).1 [.process 4 true 2600, .rig 3]).2 (.process 4 true 2601)).1.ov.on = true :=
  C131_tuner C131.hist [.process 4 true 2600, .rig 3] 2000 2601 true (C131.atRest 4 (by decide)) (by decide) (by decide) (by decide) (by decide)

/-! ### The tuner -/

/-- C132. With the tuner on, any switch of the configuration leaves it: nothing is written when it is pressed and while it is down, and
when it is released the tuner is switched off. This holds as long as the tuner stays on until then, whatever else happens.
The full property says that the switches do nothing else as long as the tuner is on, and work as usual as soon as it is off. This does
not hold: see the witnesses below. -/
theorem C132_leave_partial (hist mid : List Event) (k : Nat) (hk : k < 11) (t0 t1 : Int) :
    let st := (run initial hist).2
    let s1 := (step st (.process k true t0)).1
    let s2 := (run s1 mid).2
    AtRest k st → TunerIs true st (.process k true t0 :: mid ++ [.process k false t1]) → (∀ x ∈ seen k mid, x.1 = true) →
    (step st (.process k true t0)).2 = [] ∧ writtenBy k s1 mid = [] ∧ (step s2 (.process k false t1)).2 = [tuner false] ∧
    (step s2 (.process k false t1)).1.ov.on = false ∧ AtRest k (step s2 (.process k false t1)).1 := by
  intro st s1 s2 ⟨sw, hs, hp, ha⟩ ht hmid
  have hi : Shipped.Inv st := inv_run inv_initial hist
  obtain ⟨hon, ht⟩ := ht
  have hc : ∃ c, switches[k]? = some c := by
    cases hx : switches[k]? with
    | some c => exact ⟨c, rfl⟩
    | none => rw [List.getElem?_eq_none_iff] at hx; exact absurd hk (by have : switches.length = 11 := rfl; omega)
  obtain ⟨c, hc⟩ := hc
  have e1 : step st (.process k true t0) =
      (⟨⟨true, true, st.ov.switches.set k ⟨true, false, sw.holdWasActive, sw.period⟩⟩, st.acts⟩, []) := by
    rw [step_process hc hs, hon, tuned ha, if_neg (by rw [hp]; decide)]
    rfl
  have hin : k < st.ov.switches.length := (List.getElem?_eq_some_iff.mp hs).1
  have hs1 : s1.ov.switches[k]? = some ⟨true, false, sw.holdWasActive, sw.period⟩ := by
    show (step st (.process k true t0)).1.ov.switches[k]? = _
    rw [e1]; simp [hin]
  have hi1 : Shipped.Inv s1 := (any_step hi _).inv
  obtain ⟨w1, w2, _⟩ := still_run hc mid (fun on x hx => by
    rw [hmid x hx]
    exact plain_down (sw := ⟨true, false, sw.holdWasActive, sw.period⟩) rfl rfl on x.2) s1 hi1 hs1
  have hpb1 : s1.ov.pushedBefore = true := by
    show (step st (.process k true t0)).1.ov.pushedBefore = true
    rw [e1]
  obtain ⟨p1, p2⟩ := pushed_run hi1 hpb1 mid (.process k false t1) ht
  have hi2 : Shipped.Inv s2 := inv_run hi1 mid
  have hacts : ActsOk true s2.acts := by have := hi2.acts; rw [show s2.ov.on = true from p2] at this; exact this
  have e2 : step s2 (.process k false t1) =
      perform t1 ⟨⟨true, false, s2.ov.switches.set k ⟨false, false, sw.holdWasActive, sw.period⟩⟩, s2.acts⟩ [.leave] := by
    rw [step_process hc w2, show (run s1 mid).2.ov.on = true from p2, tuned rfl, if_neg (by simp)]
    simp only [Bool.false_eq_true, if_false, Tuner.applyOverride, p1, if_true]
    rfl
  have hin2 : k < s2.ov.switches.length := (List.getElem?_eq_some_iff.mp w2).1
  have hl := leave_ok (st := ⟨⟨true, false, s2.ov.switches.set k ⟨false, false, sw.holdWasActive, sw.period⟩⟩, s2.acts⟩) hacts
  refine ⟨by rw [e1], w1, ?_, ?_, ?_⟩
  · rw [e2, perform_leave]; rfl
  · rw [e2, perform_leave]; exact hl.2.1
  · refine ⟨⟨false, false, sw.holdWasActive, sw.period⟩, ?_, rfl, rfl⟩
    rw [e2, perform_leave]
    show (leaveSt _).ov.switches[k]? = _
    rw [hl.1.switches]
    simp [hin2]

/-- C132. If no press was waiting for its hold time when the tuner was switched on, nothing is written as long as it is on, besides
switching it off. -/
theorem C132_quiet_partial (hist es : List Event) :
    let st := (run initial hist).2
    (∀ (k : Nat) sw, st.ov.switches[k]? = some sw → sw.holdActive = false) → TunerIs true st es →
    ∀ ms ∈ (run st es).1, ms = [] ∨ ms = [tuner false] := by
  intro st hn ht
  have hi : Shipped.Inv st := inv_run inv_initial hist
  generalize st = s at hn ht hi
  induction es generalizing s with
  | nil => intro ms hms; simp [run] at hms
  | cons e es ih =>
    obtain ⟨hon, ht⟩ := ht
    obtain ⟨a1, a2⟩ := tuned_step hi hn hon e
    intro ms hms
    simp only [run, List.mem_cons] at hms
    rcases hms with rfl | hms
    · exact a2
    · exact ih _ a1 ht (any_step hi e).inv ms hms

namespace C132

/-- With the tuner on, the LEDs are dark. -/
def Dark (st : State) : Prop := st.ov.on = true → ∀ k, st.acts.lit k = none

theorem tunerValue_dark (st : State) (v : Int) : Dark (tunerValue st v) := by
  intro hon k
  simp only [tunerValue, Tuner.overrideStep] at hon ⊢
  by_cases hv : v = 1
  · simp [hv]
  · simp [hv] at hon

theorem call_dark {st : State} (h : Dark st) (now : Int) {a : Nat} (ha : 4 ≤ a ∧ a ≤ 6) (d : Bool) : Dark (call st now a d).1 := by
  rcases (by omega : a = 4 ∨ a = 5 ∨ a = 6) with rfl | rfl | rfl
  · exact h
  · exact h
  · show Dark (withTuner st _).1
    simp only [withTuner]
    split
    · exact tunerValue_dark _ _
    · exact h

theorem perform_dark (now : Int) (es : List Tuner.OverrideEff) (st : State) (h : Dark st) (leave : Bool)
    (he : Only [4, 5, 6] leave es) : Dark (perform now st es).1 := by
  induction es generalizing st with
  | nil => exact h
  | cons e es ih =>
    have ih := fun st h => ih st h fun x hx => he x (by simp [hx])
    rcases he e (by simp) with ⟨-, rfl⟩ | ⟨k, a, ha, rfl | rfl⟩
    · exact ih _ (tunerValue_dark _ _)
    · exact ih _ (call_dark h now (by simp at ha; omega) true)
    · exact ih _ (call_dark h now (by simp at ha; omega) false)

end C132

/-- C132. In every history, when the tuner comes on, be it with the switch or at the device, the LEDs of all effect switches get dark. -/
theorem C132_dark_partial (hist : List Event) (e : Event) :
    let st := (run initial hist).2
    st.ov.on = false → (step st e).1.ov.on = true → ∀ k, (step st e).1.acts.lit k = none := by
  intro st hoff hon
  have hi : Shipped.Inv st := inv_run inv_initial hist
  have ha := any_step hi e
  cases e with
  | process k p n =>
    by_cases hk : k = 4
    · subst hk
      have hc : switches[4]? = some { actions := [4, 5], actionsHold := [6] } := rfl
      obtain ⟨sw, hs, hw⟩ := hi.sw 4 _ hc
      obtain ⟨f1, _, _, f4, f5, _⟩ := overrideStep_form (ov := st.ov) hc hs (noRepeat 4 _ hc) hw p n
      rw [f5] at f1
      rw [step_process hc hs] at hon ⊢
      have hd : ∀ pb sws, C132.Dark ⟨⟨st.ov.on, pb, sws⟩, st.acts⟩ := fun _ _ h => by rw [hoff] at h; cases h
      revert hon
      generalize Tuner.applyOverride 4 st.ov.pushedBefore (Switch.process _ sw (sampleOf st.ov.on p n)).2 = ao at f1
      obtain ⟨pb, effs⟩ := ao
      intro hon
      refine C132.perform_dark n _ _ (hd _ _) true ?_ hon
      cases f1 with
      | nothing => intro e he; simp at he
      | leave ho => intro e he; simp at he; exact .inl ⟨rfl, he⟩
      | own es g1 g2 =>
        intro e he
        rcases form_actions g1 4 g2 e he with ⟨hx, -⟩ | hx
        · cases hx
        · exact .inr hx
    · have h1 := ha.on
      rw [hon] at h1
      have : track st.ov.on (step st (.process k p n)).2 = st.ov.on := by
        apply track_none
        intro m hm s
        rcases ha.own k p n rfl m hm with h | ⟨h, -⟩
        · rcases s with _ | _
          all_goals
            rintro rfl
            by_cases h10 : k < 10
            · exact absurd h ((by decide : ∀ k : Fin 10, k.val ≠ 4 → tuner true ∉ mayWrite k ∧ tuner false ∉ mayWrite k) ⟨k, h10⟩ hk |> fun x => by first | exact x.1 | exact x.2)
            · have : mayWrite k = [] := by
                match k, h10 with
                | k + 10, _ => rfl
              rw [this] at h
              cases h
        · rw [hoff] at h; cases h
      have h2 : true = track st.ov.on (step st (.process k p n)).2 := h1
      rw [this, hoff] at h2
      cases h2
  | tuner v => exact C132.tunerValue_dark _ _ hon
  | effectState slot v =>
    have h1 := ha.on
    rw [hon, ha.silent (by simp)] at h1
    have h2 : true = st.ov.on := h1
    rw [hoff] at h2
    cases h2
  | effectType slot t =>
    have h1 := ha.on
    rw [hon, ha.silent (by simp)] at h1
    have h2 : true = st.ov.on := h1
    rw [hoff] at h2
    cases h2
  | rig v => exact absurd hon (by show st.ov.on ≠ true; rw [hoff]; simp)
  | lost => exact absurd hon (by show st.ov.on ≠ true; rw [hoff]; simp)

namespace C132

/-- The tuner has been switched on with switch UP, which is still down. -/
def hist : List Event := [.process 4 true 2000, .process 4 true 2700]

def mid : List Event := [.process 4 false 2900, .process 0 true 2950, .process 6 true 3100, .effectState 1 1]

end C132

example : (step (run initial C132.hist).2 (.process 6 true 3000)).2 = [] ∧
    writtenBy 6 (step (run initial C132.hist).2 (.process 6 true 3000)).1 [.process 0 true 3050, .process 6 true 3100, .effectState 1 1] = [] ∧
    (step (run (step (run initial C132.hist).2 (.process 6 true 3000)).1 [.process 0 true 3050, .process 6 true 3100, .effectState 1 1]).2
      (.process 6 false 3200)).2 = [tuner false] ∧
    (step (run (step (run initial C132.hist).2 (.process 6 true 3000)).1 [.process 0 true 3050, .process 6 true 3100, .effectState 1 1]).2
      (.process 6 false 3200)).1.ov.on = false ∧
    AtRest 6 (step (run (step (run initial C132.hist).2 (.process 6 true 3000)).1
      [.process 0 true 3050, .process 6 true 3100, .effectState 1 1]).2 (.process 6 false 3200)).1 :=
  C132_leave_partial C132.hist _ 6 (by decide) 3000 3200 ⟨_, rfl, rfl, rfl⟩ ⟨rfl, rfl, rfl, rfl, rfl, trivial⟩ (by decide)

example : ∀ ms ∈ (run (run initial C132.hist).2 C132.mid).1, ms = [] ∨ ms = [tuner false] :=
  C132_quiet_partial C132.hist C132.mid
    (fun k sw h => by
      have : ∀ x ∈ (run initial C132.hist).2.ov.switches, x.holdActive = false := by decide
      exact this sw (List.mem_of_getElem? h))
    ⟨rfl, rfl, rfl, rfl, trivial⟩

example : ∀ k, (step (run initial [.effectType 0 40, .process 4 true 2000]).2 (.process 4 true 2700)).1.acts.lit k = none :=
  C132_dark_partial [.effectType 0 40, .process 4 true 2000] (.process 4 true 2700) (by decide) (by decide)

/-- C132, in disagreement with the property: when the device reports an effect while the tuner is on, the LEDs of its switch are lit. -/
theorem C132_light_witness :
    (run initial [.effectType 0 40, .tuner 1]).2.acts.lit 0 = none ∧
    (run initial [.effectType 0 40, .tuner 1, .effectState 0 1]).2.acts.lit 0 = some true ∧
    (run initial [.effectType 0 40, .tuner 1, .effectState 0 1]).2.ov.on = true := by decide

/-- C132, in disagreement with the property: with the tuner on, switches 1 and B are pressed, and B is released, which leaves the tuner.
When switch 1 is released, it switches effect slot A, although it was pressed in the tuner only. -/
theorem C132_toggle_witness :
    (run initial [.tuner 1, .process 0 true 1000, .process 6 true 1100, .process 6 false 1200, .process 0 false 1300]).1 =
      [[], [], [], [tuner false], [effect 0 true]] := by decide

/-- C132, in disagreement with the property: switch A is pressed shortly before the tuner is switched on at the device. It changes the
bank while the tuner is on. -/
theorem C132_hold_witness :
    (run initial [.process 5 true 1000, .tuner 1, .process 5 true 1700]).1 = [[], [], previousBank] := by decide

/-- C132, in disagreement with the property: switch B is pressed with the tuner on, and released after the tuner has been switched off at
the device. Later, switch UP is held to get to the tuner: it is left at once when the switch is released. -/
theorem C132_flash_witness :
    (run initial [.tuner 1, .process 6 true 1000, .tuner 0, .process 6 false 1100,
      .process 4 true 2000, .process 4 true 2700, .process 4 false 2800]).1 = [[], [], [], [], [], [tuner true], [tuner false]] := by decide

/-- C132, in disagreement with the property: when the connection is lost with the tuner on, its state is not known any more, but the
switches still do nothing: pressing switch 1 does not write anything. -/
theorem C132_lost_witness :
    (run initial [.tuner 1, .lost]).2.acts.tuner.cb.value = none ∧
    (run initial [.tuner 1, .lost, .process 0 true 1000, .process 0 false 1100]).1 = [[], [], [], [tuner false]] := by
  constructor
  · rfl
  · decide

end PySwitch.Props
