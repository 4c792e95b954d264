import Verif.Spec.EmulatorInputs

/-!
C147: The inputs of the emulated controller do what the user does with them.
-/

namespace PySwitch.Props
open PySwitch.EmulatorInputs PySwitch.EmulatorInputs.Spec

theorem c147_pushed (es : List Pointer) : ((es.foldl Switch.on {}).pushed = some true) ↔ Held es := by
  have key : ∀ r : List Pointer, ((r.reverse.foldl Switch.on {}).pushed = some true) ↔ Held r.reverse := by
    intro r
    induction r with
    | nil =>
      refine ⟨fun h => by simp at h, ?_⟩
      rintro ⟨pre, e, post, h, -⟩
      simp at h
    | cons e r ih =>
      rw [List.reverse_cons, List.foldl_append, List.foldl_cons, List.foldl_nil]
      have up : Press e → ((Switch.on (r.reverse.foldl Switch.on {}) e).pushed = some true ↔ Held (r.reverse ++ [e])) := by
        intro h
        refine ⟨fun _ => ⟨r.reverse, e, [], rfl, h, by simp⟩, fun _ => ?_⟩
        rcases h with rfl | rfl <;> rfl
      have dn : Release e → ((Switch.on (r.reverse.foldl Switch.on {}) e).pushed = some true ↔ Held (r.reverse ++ [e])) := by
        intro h
        constructor
        · intro h'
          rcases h with rfl | rfl | rfl | rfl <;> simp [Switch.on] at h'
        · rintro ⟨pre, x, post, hs, hx, hr⟩
          rcases List.eq_nil_or_concat post with rfl | ⟨q, y, rfl⟩
          · obtain ⟨-, he⟩ := List.append_inj' hs rfl
            simp only [List.cons.injEq, and_true] at he
            subst he
            rcases h with rfl | rfl | rfl | rfl <;> simp [Press] at hx
          · rw [List.concat_eq_append] at hs hr
            rw [← List.cons_append, ← List.append_assoc] at hs
            obtain ⟨-, he⟩ := List.append_inj' hs rfl
            simp only [List.cons.injEq, and_true] at he
            subst he
            exact absurd h (hr e (by simp))
      cases e with
      | mousedown => exact up (.inl rfl)
      | touchstart => exact up (.inr rfl)
      | mouseup => exact dn (.inl rfl)
      | touchend => exact dn (.inr (.inl rfl))
      | mouseout => exact dn (.inr (.inr (.inl rfl)))
      | mouseleave => exact dn (.inr (.inr (.inr rfl)))
      | touchcancel =>
        show (List.foldl Switch.on {} r.reverse).pushed = some true ↔ _
        rw [ih]
        constructor
        · rintro ⟨pre, x, post, hs, hx, hr⟩
          refine ⟨pre, x, post ++ [.touchcancel], by rw [hs]; simp, hx, ?_⟩
          intro y hy
          rcases List.mem_append.1 hy with hy | hy
          · exact hr y hy
          · simp only [List.mem_singleton] at hy
            subst hy
            simp [Release]
        · rintro ⟨pre, x, post, hs, hx, hr⟩
          rcases List.eq_nil_or_concat post with rfl | ⟨q, y, rfl⟩
          · obtain ⟨-, he⟩ := List.append_inj' hs rfl
            simp only [List.cons.injEq, and_true] at he
            subst he
            simp [Press] at hx
          · rw [List.concat_eq_append] at hs hr
            rw [← List.cons_append, ← List.append_assoc] at hs
            obtain ⟨he, -⟩ := List.append_inj' hs rfl
            exact ⟨pre, x, q, he, hx, fun z hz => hr z (List.mem_append_left _ hz)⟩
  have := key es.reverse
  rwa [List.reverse_reverse] at this

theorem c147_reads (s : Switch) (es : List SwitchEv) : reads s (es ++ [.poll]) = reads s es ++ [((user es).foldl Switch.on s).isPushed] := by
  induction es generalizing s with
  | nil => rfl
  | cons e es ih =>
    cases e with
    | user e => exact ih _
    | poll =>
      show s.isPushed :: reads s (es ++ [.poll]) = _
      rw [ih]
      rfl

theorem c147_isPushed (s : Switch) : s.isPushed = true ↔ s.pushed = some true := by
  simp only [Switch.isPushed, Switch.value, beq_iff_eq]
  constructor
  · intro h
    by_cases hp : s.pushed = some true
    · exact hp
    · rw [if_neg hp] at h
      exact absurd h (by decide)
  · intro h
    rw [if_pos h]

/-- Each time the firmware reads an emulated switch, it is pushed if and only if the user holds it then: after any history, with the mouse or by touch. -/
theorem C147_switch (es : List SwitchEv) : ∃ b, reads {} (es ++ [.poll]) = reads {} es ++ [b] ∧ (b = true ↔ Held (user es)) :=
  ⟨_, c147_reads {} es, (c147_isPushed _).trans (c147_pushed _)⟩

example : Held (user [.user .mousedown, .poll, .user .mouseleave, .poll, .user .touchstart, .user .touchcancel]) :=
  ⟨[.mousedown, .mouseleave], .touchstart, [.touchcancel], rfl, .inr rfl, by simp [Release]⟩

/-- Switches which are not touched are not pushed, and reading them changes nothing. -/
theorem C147_idle (n : Nat) : reads {} (List.replicate n .poll) = List.replicate n false := by
  induction n with
  | zero => rfl
  | succ n ih => rw [List.replicate_succ, List.replicate_succ, ← ih]; rfl

/-- A push which is read while it is held is seen by the firmware. It is missing that each push is seen (see `C147_missed_witness`). -/
theorem C147_push_partial (pre post : List SwitchEv) (e : Pointer) (he : Press e) :
    ∃ a b, reads {} (pre ++ .user e :: .poll :: post) = a ++ true :: b := by
  have h : ∀ (s : Switch) (l m : List SwitchEv), ∃ c, reads s (l ++ m) = c ++ reads ((user l).foldl Switch.on s) m := by
    intro s l m
    induction l generalizing s with
    | nil => exact ⟨[], rfl⟩
    | cons x l ih =>
      cases x with
      | user x => exact ih _
      | poll =>
        obtain ⟨c, hc⟩ := ih s
        exact ⟨s.isPushed :: c, by show s.isPushed :: reads s (l ++ m) = _; rw [hc]; rfl⟩
  obtain ⟨c, hc⟩ := h {} pre (.user e :: .poll :: post)
  refine ⟨c, reads (Switch.on ((user pre).foldl Switch.on {}) e) post, ?_⟩
  rw [hc]
  have : (Switch.on ((user pre).foldl Switch.on {}) e).isPushed = true := by rcases he with rfl | rfl <;> rfl
  show c ++ Switch.isPushed _ :: _ = _
  rw [this]

/-- A push which is shorter than the time between two reads is not seen. -/
theorem C147_missed_witness : reads {} [.poll, .user .mousedown, .user .mouseup, .poll] = [false, false] := by decide

/-- A tap on a touch screen is followed by the events which browsers make up for the mouse, as nothing prevents this. The firmware sees two pushes. -/
theorem C147_touch_witness :
    reads {} [.user .touchstart, .poll, .user .touchend, .poll, .user .mousedown, .poll, .user .mouseup, .poll] = [true, false, true, false] := by decide

/-- A touch which the system takes over (as for scrolling) leaves the switch pushed. -/
theorem C147_cancel_witness (n : Nat) :
    reads {} (.user .touchstart :: .user .touchcancel :: List.replicate n .poll) = List.replicate n true := by
  show reads ⟨some true, [.pushed]⟩ (List.replicate n .poll) = _
  induction n with
  | zero => rfl
  | succ n ih => rw [List.replicate_succ, List.replicate_succ, ← ih]; rfl

/-- The comments in the monitor tell each push and release, when these alternate and the pointer stays on the switch. It is missing that a release is only told
after a push, and that leaving the switch is told (see `C147_comment_witness`). -/
theorem C147_comments_partial (es : List (Bool × Bool)) :
    ((es.flatMap fun t => [if t.1 then Pointer.touchstart else .mousedown, if t.2 then .touchend else .mouseup]).foldl Switch.on {}).comments =
      es.flatMap fun _ => [.pushed, .released] := by
  have : ∀ (s : Switch),
      ((es.flatMap fun t => [if t.1 then Pointer.touchstart else .mousedown, if t.2 then .touchend else .mouseup]).foldl Switch.on s).comments =
        s.comments ++ es.flatMap fun _ => [.pushed, .released] := by
    induction es with
    | nil => intro s; simp
    | cons t es ih =>
      intro s
      rw [List.flatMap_cons, List.foldl_append, ih, List.flatMap_cons]
      rcases t with ⟨a, b⟩
      cases a <;> cases b <;> simp [Switch.on]
  simpa using this {}

/-- A release over the switch is told although nothing was pushed (the text `"false"` counts as true); leaving the pushed switch is not told. -/
theorem C147_comment_witness :
    ([Pointer.mousedown, .mouseup, .mouseup].foldl Switch.on {}).comments = [.pushed, .released, .released] ∧
      ([Pointer.mousedown, .mouseleave].foldl Switch.on {}).comments = [.pushed] := by decide

/-- The firmware reads the last position of a potentiometer, and always a value of its range. -/
theorem C147_pot (inputs : List Nat) (hr : ∀ v ∈ inputs, v ≤ 65535) :
    potValue inputs ≤ 65535 ∧ (inputs = [] → potValue inputs = 0) ∧ ∀ l v, inputs = l ++ [v] → potValue inputs = v := by
  refine ⟨?_, fun h => by rw [h]; rfl, fun l v h => by rw [h]; simp [potValue]⟩
  unfold potValue
  cases h : inputs.getLast? with
  | none => simp
  | some v => simpa using hr v (List.mem_of_getLast? h)

/-! ### Wheels -/

theorem c147_round (a : Int) (x : Rat) : mathRound (a + x) = a + mathRound x := by
  have : (a + x + 1 / 2 : Rat) = (x + 1 / 2) + a := by grind
  rw [mathRound, mathRound, this, Rat.floor_add_intCast]
  omega

theorem c147_moves (w : Wheel) (ha : w.attached = true) (path : List Rat) (x : Rat) :
    (w.run ((path ++ [x]).map .move)).position = w.start + mathRound (x - w.center) ∧
      (w.run ((path ++ [x]).map .move)).read = w.start + mathRound (x - w.center) ∧ (w.run ((path ++ [x]).map .move)).start = w.start ∧
      (w.run ((path ++ [x]).map .move)).center = w.center ∧ (w.run ((path ++ [x]).map .move)).attached = true := by
  induction path generalizing w with
  | nil =>
    simp only [List.nil_append, List.map_cons, List.map_nil, Wheel.run, List.foldl_cons, List.foldl_nil, Wheel.on, ha, if_true, c147_round]
    simp
  | cons y path ih =>
    have h := ih (w.on (.move y)) (by simp [Wheel.on, ha])
    simp only [List.cons_append, List.map_cons, Wheel.run, List.foldl_cons] at h ⊢
    have e1 : (w.on (.move y)).start = w.start := by simp [Wheel.on, ha]
    have e2 : (w.on (.move y)).center = w.center := by simp [Wheel.on, ha]
    rw [e1, e2] at h
    exact h

/-- Positions are whole numbers, the nearest one to the position of the pointer. -/
theorem C147_nearest (x : Rat) : x - 1 / 2 < mathRound x ∧ (mathRound x : Rat) ≤ x + 1 / 2 := by
  have h1 := Rat.floor_le (x + 1 / 2)
  have h2 := Rat.lt_floor_add_one (x + 1 / 2)
  rw [Rat.intCast_add] at h2
  have e : ((1 : Int) : Rat) = 1 := rfl
  rw [e] at h2
  unfold mathRound
  generalize ((x + 1 / 2 : Rat).floor : Rat) = f at h1 h2 ⊢
  constructor <;> grind

/-- While a wheel is turned, the firmware reads its position at the start of the turn plus the way of the pointer since then. So nothing is lost or added on the
way, and going back to the start gives the old position. -/
theorem C147_turn (w : Wheel) (x : Rat) (path : List Rat) (y : Rat) :
    (w.run (.down x :: (path ++ [y]).map .move)).read = w.position + mathRound (y - x) :=
  (c147_moves (w.on (.down x)) rfl path y).2.1

theorem c147_gesture (w : Wheel) (ha : w.attached = false) (hr : w.read = w.position) (g : Gesture) :
    (w.run g.events).position = w.position + g.way ∧ (w.run g.events).read = (w.run g.events).position ∧ (w.run g.events).attached = false := by
  cases g with
  | pass x => simp [Gesture.events, Gesture.way, Wheel.run, Wheel.on, ha, hr]
  | drag x path =>
    rcases List.eq_nil_or_concat path with rfl | ⟨p, y, rfl⟩
    · have : mathRound (x - x) = 0 := by
        rw [Rat.sub_self]
        decide +kernel
      simp [Gesture.events, Gesture.way, Wheel.run, Wheel.on, hr, this]
    · rw [List.concat_eq_append]
      obtain ⟨h1, h2, -⟩ := c147_moves (w.on (.down x)) rfl p y
      have e : w.run (Gesture.drag x (p ++ [y])).events = ((w.on (.down x)).run ((p ++ [y]).map .move)).on .up := by
        simp only [Gesture.events, Wheel.run, List.cons_append, List.foldl_cons, List.foldl_append, List.foldl_nil]
      rw [e]
      refine ⟨?_, ?_, rfl⟩
      · show ((w.on (.down x)).run _).position = _
        rw [h1]
        simp [Gesture.way, Wheel.on]
      · show ((w.on (.down x)).run _).read = ((w.on (.down x)).run _).position
        rw [h1, h2]

/-- After any number of turns, with moves of the pointer between them, the firmware reads the sum of their ways. -/
theorem C147_wheel (gs : List Gesture) : (Wheel.run {} (gs.flatMap Gesture.events)).read = (gs.map Gesture.way).sum := by
  have : ∀ (w : Wheel), w.attached = false → w.read = w.position →
      (w.run (gs.flatMap Gesture.events)).read = w.position + (gs.map Gesture.way).sum := by
    induction gs with
    | nil => intro w _ hr; simpa [Wheel.run] using hr
    | cons g gs ih =>
      intro w ha hr
      obtain ⟨h1, h2, h3⟩ := c147_gesture w ha hr g
      have e : w.run ((g :: gs).flatMap Gesture.events) = (w.run g.events).run (gs.flatMap Gesture.events) := by
        rw [List.flatMap_cons, Wheel.run, List.foldl_append]
        rfl
      rw [e, ih _ h3 h2, h1, List.map_cons, List.sum_cons]
      omega
  have := this {} rfl rfl
  rw [this]
  show (0 : Int) + _ = _
  omega

example : (Wheel.run {} ([Gesture.drag 100 [150, 103], .pass 500, .drag 7 [9 / 2]].flatMap Gesture.events)).read = 1 := by decide +kernel

end PySwitch.Props
