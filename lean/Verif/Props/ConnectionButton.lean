import Verif.Spec.ConnectionButton
/-!
C191: The connection button shows the state of the connection.
-/
namespace PySwitch.Props
open PySwitch.ConnectionButton PySwitch.ConnectionButton.Spec

namespace C191

theorem run_snoc (es : List Event) (e : Event) : ConnectionButton.run (es ++ [e]) = ConnectionButton.step (ConnectionButton.run es) e := by
  simp [ConnectionButton.run, List.foldl_append]
theorem midi_snoc (es : List Event) (e : Event) : midi (es ++ [e]) = match e with | .wrapper on => on | _ => midi es := by
  cases e <;> simp [midi, List.foldl_append]
theorem engine_snoc (es : List Event) (e : Event) :
    Spec.engine (es ++ [e]) = match e with | .tick p => some p | .tickFails => none | .stop => none | _ => Spec.engine es := by
  cases e <;> simp [Spec.engine, List.foldl_append]

theorem setState_look (s : ConnectionButton.State) (x : Shown) (h : ∀ y, s.last = some y → s.button = look y) :
    (setState s x).last = some x ∧ (setState s x).button = look x ∧ (setState s x).wrapper = s.wrapper ∧ (setState s x).protocol = s.protocol := by
  unfold setState
  split
  · rename_i hx; exact ⟨hx.symm, h x hx.symm, rfl, rfl⟩
  · exact ⟨rfl, by cases x <;> rfl, rfl, rfl⟩

/-- The invariant. -/
structure Good (es : List Event) (s : ConnectionButton.State) : Prop where
  wrapper : s.wrapper = midi es
  protocol : ∀ p, Spec.engine es = some p → s.protocol = some (p.getD (-10))
  last : ∃ x, s.last = some x ∧ s.button = look x

theorem good_rev : ∀ es : List Event, Good es.reverse (ConnectionButton.run es.reverse)
  | [] => ⟨rfl, (fun p h => by cases h), _, rfl, rfl⟩
  | e :: es => by
    rw [List.reverse_cons, run_snoc]
    obtain ⟨h1, h2, x, h3, h4⟩ := good_rev es
    generalize ConnectionButton.run es.reverse = s at h1 h2 h3 h4
    cases e with
    | wrapper on => exact ⟨by rw [midi_snoc]; rfl, fun p hp => h2 p (by rw [engine_snoc] at hp; exact hp), x, h3, h4⟩
    | tick p =>
      cases p with
      | none => exact ⟨by rw [midi_snoc]; exact h1, fun p hp => by rw [engine_snoc] at hp; cases hp; rfl, x, h3, h4⟩
      | some p => exact ⟨by rw [midi_snoc]; exact h1, fun q hq => by rw [engine_snoc] at hq; cases hq; rfl, x, h3, h4⟩
    | tickFails => exact ⟨by rw [midi_snoc]; exact h1, (fun p hp => by rw [engine_snoc] at hp; cases hp), x, h3, h4⟩
    | stop => exact ⟨by rw [midi_snoc]; exact h1, (fun p hp => by rw [engine_snoc] at hp; cases hp), x, h3, h4⟩
    | poll =>
      obtain ⟨a, b, c, d⟩ := setState_look s (getCurrentState s) (fun y hy => by rw [h3] at hy; cases hy; exact h4)
      refine ⟨by rw [midi_snoc]; exact c.trans h1, fun p hp => ?_, _, a, b⟩
      rw [engine_snoc] at hp
      exact d.trans (h2 p hp)

theorem good (es : List Event) : Good es (ConnectionButton.run es) := by
  have := good_rev es.reverse
  rwa [List.reverse_reverse] at this

theorem poll_shows (es : List Event) : (ConnectionButton.run (es ++ [.poll])).button = look (getCurrentState (ConnectionButton.run es)) := by
  obtain ⟨h1, h2, x, h3, h4⟩ := good es
  rw [run_snoc]
  exact (setState_look _ _ (fun y hy => by rw [h3] at hy; cases hy; exact h4)).2.1

end C191

/-- After any history, the button has exactly one of the three looks: symbols, classes and titles never mix. -/
theorem C191_looks (es : List Event) : ∃ x, (ConnectionButton.run es).button = look x := by
  obtain ⟨_, _, x, _, h⟩ := C191.good es
  exact ⟨x, h⟩

/-- Before the first update, it shows that there is no connection. -/
theorem C191_start (es : List Event) (h : ∀ e ∈ es, e ≠ .poll) : (ConnectionButton.run es).button = look .notConnected := by
  have key : ∀ (es : List Event) (s : State), (∀ e ∈ es, e ≠ .poll) → (es.foldl step s).button = s.button := by
    intro es
    induction es with
    | nil => intro s _; rfl
    | cons e es ih =>
      intro s h
      rw [List.foldl_cons, ih _ (fun x hx => h x (List.mem_cons_of_mem _ hx))]
      have := h e List.mem_cons_self
      cases e with
      | poll => exact absurd rfl this
      | tick p => cases p <;> rfl
      | _ => rfl
  exact key es start h

/-- While the emulator is running, the button shows the true state of the connection with each update, and until something changes. Missing: an emulator which is not running. (The states of protocols
are never -10.) -/
theorem C191_running_partial (es : List Event) (p : Option Int) (hp : p ≠ some (-10)) (h : Spec.engine es = some p) (n : Nat) :
    (ConnectionButton.run (es ++ List.replicate (n + 1) .poll)).button = look (truth (midi es) p) := by
  have key : ∀ es : List Event, Spec.engine es = some p → (ConnectionButton.run (es ++ [.poll])).button = look (truth (midi es) p) := by
    intro es h
    obtain ⟨h1, h2, _⟩ := C191.good es
    rw [C191.poll_shows]
    have hs := h2 p h
    congr 1
    unfold getCurrentState truth
    rw [h1, hs]
    cases hm : midi es with
    | false => rfl
    | true =>
      cases p with
      | none => rfl
      | some q =>
        have hq : q ≠ -10 := fun e => hp (by rw [e])
        simp [hq]
  have more : ∀ n, Spec.engine (es ++ List.replicate n .poll) = some p ∧ midi (es ++ List.replicate n .poll) = midi es := by
    intro n
    induction n with
    | zero => simpa using h
    | succ n ih => rw [List.replicate_succ', ← List.append_assoc, C191.engine_snoc, C191.midi_snoc]; exact ih
  rw [List.replicate_succ', ← List.append_assoc, key _ (more n).1, (more n).2]

example : Spec.engine [.tick none, .wrapper true, .stop, .tick (some 10), .poll, .tick (some 20)] = some (some 20) ∧
    midi [.tick none, .wrapper true, .stop, .tick (some 10), .poll, .tick (some 20)] = true := by decide

/-- Without MIDI, it always shows that there is no connection, also if the emulator is not running. -/
theorem C191_no_midi (es : List Event) (h : midi es = false) : (ConnectionButton.run (es ++ [.poll])).button = look .notConnected := by
  obtain ⟨h1, _⟩ := C191.good es
  rw [C191.poll_shows]
  unfold getCurrentState
  rw [h1, h]
  rfl

example : midi [.wrapper true, .tick (some 20), .wrapper false] = false := by decide

/-- After the emulator has stopped, be it by an error, the button goes on showing that it is connected. -/
theorem C191_stopped_witness : Spec.engine [.wrapper true, .tick (some 20), .tickFails] = none ∧
    (ConnectionButton.run [.wrapper true, .tick (some 20), .tickFails, .poll]).button = look .connected ∧
    (ConnectionButton.run [.wrapper true, .tick (some 20), .stop, .poll, .poll]).button = look .connected := by decide +kernel

end PySwitch.Props
