import Verif.Lemmas.Binary
import Verif.Spec.EffectButton
/-
C79: effect buttons.
-/
namespace PySwitch.Props
open PySwitch PySwitch.EffectButton

namespace C79

/-- What is displayed. -/
theorem display_eq (c : EffectButton.Config) (s : Bool) :
    Binary.sets (Binary.display c.binary s c.color) = [] ∧
    ∀ x, Binary.leds x (Binary.display c.binary s c.color) = some (c.color, s && c.internal) := by
  have h : c.binary.reported = c.internal := rfl
  unfold Binary.display
  rw [h]
  split <;> split <;> simp [Binary.sets, Binary.leds]

/-- Drawing a callback which has never got a value. -/
theorem upd (c : EffectButton.Config) (b : Binary.State) (hv : b.value = none) :
    ∃ es, Binary.updateDisplays c.binary b = (
      { b with currentValue := some none, state := if b.currentValue = some none then b.state else false,
               currentColor := some c.color, displayState := some (if b.currentValue = some none then b.state else false) }, es) ∧
    (∀ x, Binary.leds x es =
      if b.currentColor = some c.color ∧ b.displayState = some (if b.currentValue = some none then b.state else false) then x
      else some (c.color, (if b.currentValue = some none then b.state else false) && c.internal)) ∧
    Binary.sets es = [] := by
  obtain ⟨v, s, d, u, cv, ds, cc⟩ := b
  simp only at hv
  subst hv
  have key : ∀ s : Bool, ∃ es,
      (if (decide (cc ≠ some c.color) || decide (ds ≠ some s)) = true then
        (({ value := none, state := s, disable := d, updateDisabled := u, currentValue := some none, currentColor := some c.color,
            displayState := some s } : Binary.State), Binary.display c.binary s c.color)
      else ({ value := none, state := s, disable := d, updateDisabled := u, currentValue := some none, currentColor := cc,
              displayState := ds }, [])) =
        (({ value := none, state := s, disable := d, updateDisabled := u, currentValue := some none, currentColor := some c.color,
            displayState := some s } : Binary.State), es) ∧
      (∀ x, Binary.leds x es = if cc = some c.color ∧ ds = some s then x else some (c.color, s && c.internal)) ∧
      Binary.sets es = [] := by
    intro s
    by_cases h : cc = some c.color ∧ ds = some s
    · obtain ⟨rfl, rfl⟩ := h
      exact ⟨[], by simp, by simp [Binary.leds], rfl⟩
    · refine ⟨Binary.display c.binary s c.color, ?_, ?_, (display_eq c s).1⟩
      · rw [if_pos]
        by_cases h1 : cc = some c.color
        · have : ds ≠ some s := fun h2 => h ⟨h1, h2⟩
          simp [this]
        · simp [h1]
      · intro x
        rw [if_neg h, (display_eq c s).2]
  have ec : ∀ s v, c.binary.color s v = c.color := fun _ _ => rfl
  by_cases h : cv = some none
  · subst h
    simpa [Binary.updateDisplays, ec] using key s
  · have := key false
    simp only [if_neg h]
    simpa [Binary.updateDisplays, ec, h, Binary.evaluateValue, Binary.evaluate, Binary.remember] using this

theorem sets_visible (b : Bool) (es : List Binary.Eff) : Binary.sets (visible b es) = Binary.sets es := by
  cases b
  · simp only [visible, Bool.false_eq_true, if_false]
    induction es with
    | nil => rfl
    | cons e es ih => cases e <;> simp [Binary.sets, List.filter, ih]
  · simp [visible]

/-- The state between happenings: `x` is what the LEDs have been set to. -/
structure Inv (c : EffectButton.Config) (on : Bool) (x : Option (Nat × Bool)) (st : EffectButton.State) : Prop where
  value : st.bin.value = none
  disable : st.bin.disable = .one (.num 0)
  state : st.bin.state = on
  seen : st.last = some st.enabled
  drawn : st.enabled = true → st.bin.currentValue = some none ∧ st.bin.displayState = some on ∧
    st.bin.currentColor = some c.color ∧ x = some (c.color, on && c.internal)

/-- The indication after a happening. -/
def next (enabled on : Bool) (h : Happening) : Bool :=
  if h.clears enabled then false else if h = .press ∧ enabled = true then !on else on

/-- What is sent by a happening. -/
def sends (enabled on : Bool) (h : Happening) : List Binary.Sent :=
  if h = .press ∧ enabled = true then [.one (if on then 0 else 1)] else []

theorem inv_step (c : EffectButton.Config) (on : Bool) (x : Option (Nat × Bool)) (st : EffectButton.State) (hi : Inv c on x st)
    (h : Happening) :
    (run c st h.events).2.enabled = enabledAfter st.enabled [h] ∧
    sent (run c st h.events).1.flatten = sends st.enabled on h ∧
    Inv c (next st.enabled on h) (Binary.leds x (run c st h.events).1.flatten) (run c st h.events).2 := by
  obtain ⟨⟨v, s, d, u, cv, ds, cc⟩, en, la⟩ := st
  obtain ⟨hv, hd, hs, hl, hdr⟩ := hi
  simp only at hv hd hs hl hdr
  subst hv hd hs hl
  -- drawing after a reset
  have reset : ∀ (s' : Bool) (la : Option Bool), ∃ es b', draw c { bin := ⟨none, s', .one (.num 0), u, none, none, none⟩, enabled := true, last := la } =
      (⟨b', true, la⟩, es) ∧ b' = ⟨none, false, .one (.num 0), u, some none, some false, some c.color⟩ ∧
      Binary.sets es = [] ∧ ∀ x, Binary.leds x es = some (c.color, false) := by
    intro s' la
    obtain ⟨es, U1, U2, U3⟩ := upd c ⟨none, s', .one (.num 0), u, none, none, none⟩ rfl
    refine ⟨es, _, ?_, rfl, U3, ?_⟩
    · simp only [draw, if_true, U1]; simp
    · intro x; rw [U2]; simp
  cases h with
  | press =>
    cases en
    · simp [Happening.events, run, step, enabledAfter, sends, next, Happening.clears, Binary.leds, sent, Binary.sets]
      exact ⟨rfl, rfl, rfl, rfl, by simp⟩
    · obtain ⟨h1, h2, h3, h4⟩ := hdr rfl
      subst h1 h2 h3 h4
      obtain ⟨es, U1, U2, U3⟩ := upd c ⟨none, !s, .one (.num 0), u, some none, some s, some c.color⟩ rfl
      simp only [if_true] at U1 U2
      have hsc : Binary.stateChanged c.binary ⟨none, !s, .one (.num 0), u, some none, some s, some c.color⟩ =
          [.set false (.one (if s then 0 else 1)), .request] := by
        have e1 : c.binary.hasMappingDisable = false := rfl
        have e2 : c.binary.enable = .one 1 := rfl
        simp only [Binary.stateChanged, e1, e2, Bool.and_false]
        cases s <;> rfl
      simp only [Happening.events, run, step, if_true, Binary.toggle, U1, hsc, List.flatten_cons, List.flatten_nil,
        List.append_nil, sent, Binary.sets_append, U3, Binary.leds_append, U2]
      refine ⟨rfl, ?_, rfl, rfl, ?_, rfl, fun _ => ⟨rfl, ?_, rfl, ?_⟩⟩
      · simp [sends, Binary.sets]
      · simp [next, Happening.clears]
      · simp [next, Happening.clears]
      · simp [next, Happening.clears]
  | rig =>
    cases en
    · cases s
      · simp [Happening.events, run, step, rigChanged, draw, enabledAfter, sends, next, Happening.clears, Binary.leds, sent, Binary.sets]
        exact ⟨rfl, rfl, rfl, rfl, by simp⟩
      · obtain ⟨es, U1, U2, U3⟩ := upd c ⟨none, false, .one (.num 0), u, cv, ds, cc⟩ rfl
        simp only [Happening.events, run, step, rigChanged, draw, Bool.false_eq_true, if_false, if_true, U1, List.flatten_cons,
          List.flatten_nil, List.append_nil, List.nil_append, sent, sets_visible, U3]
        refine ⟨rfl, ?_, rfl, rfl, ?_, rfl, by simp⟩
        · simp [sends]
        · simp [next, Happening.clears]
    · obtain ⟨h1, h2, h3, h4⟩ := hdr rfl
      subst h1 h2 h3 h4
      obtain ⟨es, U1, U2, U3⟩ := upd c ⟨none, s, .one (.num 0), u, some none, some s, some c.color⟩ rfl
      obtain ⟨es', U1', U2', U3'⟩ := upd c ⟨none, false, .one (.num 0), u, some none, some s, some c.color⟩ rfl
      simp only [if_true] at U1 U2 U1' U2'
      cases s
      · simp only [Happening.events, run, step, rigChanged, draw, Bool.false_eq_true, if_false, if_true, U1, List.flatten_cons,
          List.flatten_nil, List.append_nil, sent, U3, U2]
        refine ⟨rfl, ?_, rfl, rfl, ?_, rfl, fun _ => ⟨rfl, ?_, rfl, ?_⟩⟩ <;> simp [sends, next, Happening.clears]
      · simp only [Happening.events, run, step, rigChanged, draw, if_true, U1, U1', List.flatten_cons,
          List.flatten_nil, List.append_nil, sent, Binary.sets_append, visible, U3, U3', U2, U2', Binary.leds_append]
        refine ⟨rfl, ?_, rfl, rfl, ?_, rfl, fun _ => ⟨rfl, ?_, rfl, ?_⟩⟩ <;> simp [sends, next, Happening.clears]
  | reset =>
    cases en
    · simp [Happening.events, run, step, draw, Binary.reset, enabledAfter, sends, next, Happening.clears, Binary.leds, sent, Binary.sets]
      exact ⟨rfl, rfl, rfl, rfl, by simp⟩
    · obtain ⟨es, b', R1, R2, R3, R4⟩ := reset false (some true)
      subst R2
      simp only [Happening.events, run, step, Binary.reset, R1, List.flatten_cons, List.flatten_nil, List.append_nil, sent, R3, R4]
      refine ⟨rfl, ?_, rfl, rfl, ?_, rfl, fun _ => ⟨rfl, ?_, rfl, ?_⟩⟩ <;> simp [sends, next, Happening.clears]
  | tick =>
    simp [Happening.events, run, step, enabledAfter, sends, next, Happening.clears, Binary.leds, sent, Binary.sets]
    exact ⟨rfl, rfl, rfl, rfl, hdr⟩
  | page p =>
    by_cases hp : p = en
    · subst hp
      simp [Happening.events, run, step, enabledAfter, sends, next, Happening.clears, Binary.leds, sent, Binary.sets]
      exact ⟨rfl, rfl, rfl, rfl, hdr⟩
    · have hne : ¬ en = p := fun h => hp h.symm
      cases p
      · simp [Happening.events, run, step, draw, hne, Binary.reset, enabledAfter, sends, next, Happening.clears, Binary.leds, sent, Binary.sets]
        exact ⟨rfl, rfl, rfl, rfl, by simp⟩
      · have : en = false := by simpa using hne
        subst this
        obtain ⟨es, b', R1, R2, R3, R4⟩ := reset s (some true)
        subst R2
        have T : step c ⟨⟨none, s, .one (.num 0), u, cv, ds, cc⟩, true, some false⟩ .tick =
            (⟨⟨none, false, .one (.num 0), u, some none, some false, some c.color⟩, true, some true⟩, es) := by
          simp only [step]
          rw [if_pos (by simp)]
          exact R1
        simp only [Happening.events, run, T, step.eq_3, List.flatten_cons, List.flatten_nil, List.append_nil, List.nil_append, sent, R3, R4]
        refine ⟨rfl, ?_, rfl, rfl, ?_, rfl, fun _ => ⟨rfl, ?_, rfl, ?_⟩⟩ <;> simp [sends, next, Happening.clears]

theorem run_append (c : EffectButton.Config) (st : EffectButton.State) (a b : List Event) :
    run c st (a ++ b) = ((run c st a).1 ++ (run c (run c st a).2 b).1, (run c (run c st a).2 b).2) := by
  induction a generalizing st with
  | nil => rfl
  | cons e a ih => simp [run, ih]

theorem sent_append (a b : List Binary.Eff) : sent (a ++ b) = sent a ++ sent b := by
  simp [sent, Binary.sets_append]

/-- The indication after some happenings. -/
def after : Bool → Bool → List Happening → Bool
  | _, on, [] => on
  | en, on, h :: hs => after (enabledAfter en [h]) (next en on h) hs

theorem inv_run (c : EffectButton.Config) (hs : List Happening) : ∀ (on : Bool) (x : Option (Nat × Bool)) (st : EffectButton.State),
    Inv c on x st →
    (run c st (hs.flatMap Happening.events)).2.enabled = enabledAfter st.enabled hs ∧
    Inv c (after st.enabled on hs) (Binary.leds x (run c st (hs.flatMap Happening.events)).1.flatten)
      (run c st (hs.flatMap Happening.events)).2 := by
  induction hs with
  | nil => intro on x st hi; exact ⟨rfl, hi⟩
  | cons h hs ih =>
    intro on x st hi
    obtain ⟨h1, _, h3⟩ := inv_step c on x st hi h
    obtain ⟨i1, i2⟩ := ih _ _ _ h3
    simp only [List.flatMap_cons, run_append, List.flatten_append, Binary.leds_append, after]
    rw [h1] at i1 i2
    refine ⟨?_, i2⟩
    rw [i1]
    cases h <;> rfl

/-- After the first update. -/
theorem inv_initial (c : EffectButton.Config) (start : Bool) :
    (run c (initial start) [.tick]).2.enabled = start ∧ sent (run c (initial start) [.tick]).1.flatten = [] ∧
    Inv c false (Binary.leds none (run c (initial start) [.tick]).1.flatten) (run c (initial start) [.tick]).2 := by
  cases start
  · simp [run, step, initial, draw, sent, Binary.sets, Binary.initial, Binary.reset]
    exact ⟨rfl, rfl, rfl, rfl, by simp⟩
  · obtain ⟨es, U1, U2, U3⟩ := upd c ⟨none, false, .one (.num 0), .one false, none, none, none⟩ rfl
    have T : step c (initial true) .tick =
        (⟨⟨none, false, .one (.num 0), .one false, some none, some false, some c.color⟩, true, some true⟩, es) := by
      simp only [step]
      rw [if_pos (by simp [initial])]
      have : Binary.reset (initial true).bin = ⟨none, false, .one (.num 0), .one false, none, none, none⟩ := rfl
      rw [this]
      simp only [draw, initial, if_true, U1]
      simp
    simp only [run, T, List.flatten_cons, List.flatten_nil, List.append_nil, sent, U3, U2]
    refine ⟨trivial, rfl, rfl, rfl, rfl, rfl, fun _ => ⟨rfl, rfl, rfl, ?_⟩⟩
    simp

theorem after_presses (start on : Bool) (n : Nat) (hn : on = decide (n % 2 = 1)) (hs : List Happening) :
    after start on hs = decide (presses start n hs % 2 = 1) := by
  induction hs generalizing start on n with
  | nil => exact hn
  | cons h hs ih =>
    simp only [after]
    cases h with
    | press =>
      simp only [presses]
      refine ih _ _ _ ?_
      cases start
      · simp [next, Happening.clears, hn]
      · simp only [next, Happening.clears, hn, and_self, if_true, Bool.false_eq_true, if_false]
        by_cases h : n % 2 = 1
        · have : ¬ (n + 1) % 2 = 1 := by omega
          simp [h, this]
        · have : (n + 1) % 2 = 1 := by omega
          simp [h, this]
    | rig => exact ih _ _ _ (by simp [next, Happening.clears])
    | reset => exact ih _ _ _ (by simp [next, Happening.clears])
    | tick => exact ih _ _ _ (by simp [next, Happening.clears, hn])
    | page b =>
      refine ih _ _ _ ?_
      cases b <;> cases start <;> simp [next, Happening.clears, hn]

/-- All at once. -/
theorem all (c : EffectButton.Config) (start : Bool) (hs : List Happening) :
    (run c (initial start) (events hs)).2.enabled = enabledAfter start hs ∧
    Inv c (decide (presses start 0 hs % 2 = 1)) (Binary.leds none (run c (initial start) (events hs)).1.flatten)
      (run c (initial start) (events hs)).2 := by
  obtain ⟨h1, _, h3⟩ := inv_initial c start
  obtain ⟨i1, i2⟩ := inv_run c hs _ _ _ h3
  rw [h1] at i1 i2
  have e : events hs = [.tick] ++ hs.flatMap Happening.events := rfl
  rw [e, run_append, List.flatten_append, Binary.leds_append, ← after_presses start false 0 rfl hs]
  exact ⟨i1, i2⟩

end C79

/-- C79. What an effect button shows: after any history of presses, rig changes, resets and page changes (taking effect before
the next press), the LEDs of an enabled button are bright exactly if it has been pressed an odd number of times since the last
rig change, reset, or change to its page. -/
theorem C79_shown_partial (c : EffectButton.Config) (start : Bool) (hs : List Happening) (he : enabledAfter start hs = true) :
    Binary.leds none (run c (initial start) (events hs)).1.flatten =
      some (c.color, decide (presses start 0 hs % 2 = 1) && c.internal) := by
  obtain ⟨h1, h2⟩ := C79.all c start hs
  exact (h2.drawn (h1.trans he)).2.2.2

example : Binary.leds none (run ⟨1, true, true, 7⟩ (initial true) (events [.press, .rig, .press, .press, .page false, .page true, .press])).1.flatten
    = some (7, true) := by decide

/-- C79. What is sent: each press of an enabled button sends one message, with the value for "on" if the number of presses so far
is even and the one for "off" otherwise; nothing else sends anything. -/
theorem C79_sent_partial (c : EffectButton.Config) (start : Bool) (hs : List Happening) (h : Happening) :
    sent (run c (run c (initial start) (events hs)).2 h.events).1.flatten =
      if h = .press ∧ enabledAfter start hs = true then [.one (if presses start 0 hs % 2 = 1 then 0 else 1)] else [] := by
  obtain ⟨h1, h2⟩ := C79.all c start hs
  rw [(C79.inv_step c _ _ _ h2 h).2.1, C79.sends, h1]
  simp

example : sent (run ⟨1, true, true, 7⟩ (run ⟨1, true, true, 7⟩ (initial true) (events [.press, .rig])).2 Happening.press.events).1.flatten
    = [.one 1] := by decide

/-- C79, disagreement: a press between a change to the page of the button and the next update is sent, but the button shows "off" and
the next press sends the same value again. -/
theorem C79_early_press : ∃ es : List Event,
    let r := run ⟨1, true, true, 7⟩ (initial false) es
    sent r.1.flatten = [.one 1] ∧ Binary.leds none r.1.flatten = some (7, false) ∧
    sent (step ⟨1, true, true, 7⟩ r.2 .press).2 = [.one 1] :=
  ⟨[.tick, .enable true, .press, .tick], by decide⟩

/-- C79. A disabled button never touches the LEDs, whatever happens. -/
theorem C79_hidden (c : EffectButton.Config) (st : EffectButton.State) (he : st.enabled = false) (e : Event) :
    ∀ x ∈ (step c st e).2, ∀ col b, x ≠ .led col b := by
  intro x hx col b hcb
  subst hcb
  cases e with
  | rig =>
    simp only [step, rigChanged, draw, he, Bool.false_eq_true, if_false, List.nil_append] at hx
    split at hx
    · simp [visible] at hx
    · simp at hx
  | press => simp [step, he] at hx
  | enable v => simp [step] at hx
  | tick =>
    simp only [step, draw, he, Bool.false_eq_true, if_false] at hx
    split at hx <;> simp at hx
  | reset => simp [step, draw, he] at hx

/-- C79. Without a text of its own, a button is labelled with FX and as many strokes as its number. -/
theorem C79_text (n : Nat) (h : 1 ≤ n ∧ n ≤ 4) : defaultText n = some ("FX " ++ String.ofList (List.replicate n 'I')) := by
  obtain ⟨h1, h2⟩ := h
  have : n = 1 ∨ n = 2 ∨ n = 3 ∨ n = 4 := by omega
  rcases this with rfl | rfl | rfl | rfl <;> decide

/-- C79, disagreement: leaving the tuner or changing the page resets the button (`PushButtonAction.reset`), although the effects in the
device stay on; the next press sends "on" again. -/
theorem C79_reset (c : EffectButton.Config) (hs : List Happening) :
    let st := (run c (initial true) (events (hs ++ [.page true, .reset, .press, .reset]))).2
    sent (run c st [.press]).1.flatten = [.one 1] := by
  intro st
  have h := C79_sent_partial c true (hs ++ [.page true, .reset, .press, .reset]) .press
  have hp : ∀ (hs : List Happening) (start : Bool) n, presses start n (hs ++ [.page true, .reset, .press, .reset]) = 0 := by
    intro hs
    induction hs with
    | nil => intro start n; simp [presses, Happening.clears]
    | cons x hs ih => intro start n; cases x <;> simp only [List.cons_append, presses, ih]
  have he : ∀ (hs : List Happening) (start : Bool), enabledAfter start (hs ++ [.page true, .reset, .press, .reset]) = true := by
    intro hs
    induction hs with
    | nil => intro start; rfl
    | cons x hs ih => intro start; cases x <;> simp only [List.cons_append, enabledAfter, ih]
  rw [hp, he] at h
  simp only [and_self, if_true] at h
  exact h

/-- C79, disagreement: a rig change makes a disabled button write to its label, which an enabled action of another page may use. -/
theorem C79_disabled_label : ∃ es : List Event,
    let r := run ⟨1, true, true, 7⟩ (initial true) es
    r.2.enabled = false ∧ Binary.text none (step ⟨1, true, true, 7⟩ r.2 .rig).2 = some true ∧
    Binary.label none (step ⟨1, true, true, 7⟩ r.2 .rig).2 = some (7, false) :=
  ⟨[.tick, .press, .enable false, .tick], by decide⟩

end PySwitch.Props
