import Verif.Spec.EmulatorMidi
import Verif.Lemmas.Wire

/-!
The MIDI input of the emulator.
-/

namespace PySwitch.EmulatorMidi
open PySwitch.Wire PySwitch.Wire.Spec Spec

theorem cutOk_whole (ms : List Msg) : CutOk ms (stream ms).length := by
  induction ms with
  | nil => trivial
  | cons m ms ih =>
    rw [stream_cons, CutOk, List.length_append, if_neg (by omega), Nat.add_sub_cancel_left]
    exact ih

/-- What is read is a beginning of the queue, and one message may be lost. -/
theorem read_msgs (room : Nat) (q : List Msg) : ∃ a lost b, q = a ++ lost ++ b ∧ read room (q.map wire) = (stream a, b.map wire) ∧ lost.length ≤ 1 ∧
    (lost = [] → b = []) ∧ ((∀ m ∈ q, (wire m).length ≤ room) → lost = []) := by
  induction q with
  | nil => exact ⟨[], [], [], rfl, rfl, by simp, fun _ => rfl, fun _ => rfl⟩
  | cons m q ih =>
    by_cases h : (wire m).length > room
    · refine ⟨[], [m], q, rfl, ?_, by simp, fun e => by simp at e, fun hf => ?_⟩
      · rw [List.map_cons, read, if_pos h]
        rfl
      · have := hf m List.mem_cons_self
        omega
    · obtain ⟨a, lost, b, h1, h2, h3, h4, h5⟩ := ih
      refine ⟨m :: a, lost, b, by rw [h1]; simp, ?_, h3, h4, fun hf => h5 fun x hx => hf x (List.mem_cons_of_mem _ hx)⟩
      rw [List.map_cons, read, if_neg h, h2, stream_cons]

/-- One call of `receive()` with whole messages. -/
theorem receive_whole (channels : List Nat) (size : Nat) (bs a : List Msg) (hr : (stream bs).length < size ∨ a = [])
    (hv : ∀ m ∈ bs ++ a, Valid m) :
    ∃ d rest, bs ++ a = d ++ rest ∧ (receive channels size (stream bs) (stream a)).1.toList = d.filter (Heard channels) ∧
      (receive channels size (stream bs) (stream a)).2 = stream rest ∧
      ((receive channels size (stream bs) (stream a)).1 = none → rest = []) := by
  obtain ⟨d, rest, h1, h2, h3, -, h5⟩ := receive_stream channels size (stream bs) (stream a) [] (hr.imp (fun x => x) fun x => by rw [x]; rfl) (bs ++ a) hv
    (by rw [List.append_nil, stream_append]) (by rw [← stream_append]; exact cutOk_whole _)
  rw [List.append_nil] at h3
  exact ⟨d, rest, h1, h2, h3, fun hn => (h5 hn).1 rfl⟩

/-- The state for messages: those which have been returned, those in the buffer and those in the queue. -/
structure Holds (channels : List Nat) (s : State) (done bs q : List Msg) : Prop where
  out : s.out = done.filter (Heard channels)
  buf : s.buf = stream bs
  queue : s.queue = q.map wire

theorem step_arrive {channels : List Nat} {size : Nat} {s : State} {done bs q : List Msg} (h : Holds channels s done bs q) (m : Msg) :
    Holds channels (s.step channels size (.arrive (wire m))) done bs (q ++ [m]) :=
  ⟨h.out, h.buf, by simp [State.step, h.queue]⟩

theorem step_poll {channels : List Nat} {size : Nat} {s : State} {done bs q : List Msg} (h : Holds channels s done bs q)
    (hv : ∀ m ∈ bs ++ q, Valid m) :
    ∃ d rest lost b, bs ++ q = d ++ rest ++ lost ++ b ∧ Holds channels (s.step channels size .poll) (done ++ d) rest b ∧
      ((s.buf.length < size → ∀ m ∈ s.queue, m.length ≤ size - s.buf.length) → lost = []) ∧
      ((s.buf.length < size → ∀ m ∈ s.queue, m.length ≤ size - s.buf.length) → s.buf.length < size → b = []) ∧
      (b = q → (s.step channels size .poll).out = s.out → rest = []) ∧ (s.buf.length < size → b = [] → (s.step channels size .poll).out = s.out → rest = []) := by
  simp only [State.step]
  by_cases hr : s.buf.length < size
  · rw [if_pos hr]
    obtain ⟨a, lost, b, h1, h2, h3, h4, h5⟩ := read_msgs (size - s.buf.length) q
    rw [← h.queue] at h2
    rw [h2]
    have hv' : ∀ m ∈ bs ++ a, Valid m := fun m hm => hv m (by
      rw [h1]
      rcases List.mem_append.1 hm with hm | hm <;> simp [hm])
    obtain ⟨d, rest, g1, g2, g3, g4⟩ := receive_whole channels size bs a (.inl (by rw [← h.buf]; exact hr)) hv'
    rw [← h.buf] at g2 g3 g4
    have hempty : s.out ++ (receive channels size s.buf (stream a)).1.toList = s.out → rest = [] := by
      intro e
      apply g4
      have := List.append_right_eq_self.1 e
      cases hx : (receive channels size s.buf (stream a)).1 with
      | none => rfl
      | some x => rw [hx] at this; simp at this
    have hlost : (s.buf.length < size → ∀ m ∈ s.queue, m.length ≤ size - s.buf.length) → lost = [] := by
      intro hf
      refine h5 fun m hm => hf hr (wire m) ?_
      rw [h.queue]
      exact List.mem_map_of_mem hm
    refine ⟨d, rest, lost, b, ?_, ⟨?_, g3, rfl⟩, hlost, fun hf _ => h4 (hlost hf), fun _ e => hempty e, fun _ _ e => hempty e⟩
    · rw [h1, ← g1]
      simp
    · simp only
      rw [g2, h.out, List.filter_append]
  · rw [if_neg hr]
    obtain ⟨d, rest, g1, g2, g3, g4⟩ := receive_whole channels size bs [] (.inr rfl) (fun m hm => hv m (by
      rw [List.append_nil] at hm
      simp [hm]))
    have e0 : stream ([] : List Msg) = [] := rfl
    rw [← h.buf, e0] at g2 g3 g4
    rw [List.append_nil] at g1
    refine ⟨d, rest, [], q, by rw [g1]; simp, ⟨?_, g3, h.queue⟩, fun _ => rfl, fun _ hr' => absurd hr' hr, ?_, fun hr' => absurd hr' hr⟩
    · simp only
      rw [g2, h.out, List.filter_append]
    · intro _ e
      apply g4
      have := List.append_right_eq_self.1 e
      cases hx : (receive channels size s.buf []).1 with
      | none => rfl
      | some x => rw [hx] at this; simp at this

theorem events_append (a b : History) : events (a ++ b) = events a ++ events b := by simp [events]

theorem run_append (channels : List Nat) (size : Nat) (s : State) (a b : List Ev) :
    run channels size s (a ++ b) = run channels size (run channels size s a) b := by simp [run]

theorem arrived_append (a b : History) : arrived (a ++ b) = arrived a ++ arrived b := by simp [arrived]

/-- After every history the messages which have been returned or wait are among those which arrived, in order; they are all if there was room. -/
theorem holds_run (channels : List Nat) (size : Nat) (h : History) : (∀ m ∈ arrived h, Valid m) →
    ∃ done bs q, Holds channels (run channels size {} (events h)) done bs q ∧ (done ++ bs ++ q).Sublist (arrived h) ∧
      (Fits channels size h → done ++ bs ++ q = arrived h) := by
  have : ∀ l : History, (∀ m ∈ arrived l.reverse, Valid m) →
    ∃ done bs q, Holds channels (run channels size {} (events l.reverse)) done bs q ∧ (done ++ bs ++ q).Sublist (arrived l.reverse) ∧
      (Fits channels size l.reverse → done ++ bs ++ q = arrived l.reverse) := by
    intro l
    induction l with
    | nil => exact fun _ => ⟨[], [], [], ⟨rfl, rfl, rfl⟩, List.Sublist.refl _, fun _ => rfl⟩
    | cons e l ih =>
      rw [List.reverse_cons, arrived_append, events_append, run_append]
      intro hv
      obtain ⟨done, bs, q, h1, h2, h3⟩ := ih fun m hm => hv m (List.mem_append_left _ hm)
      have hfit : Fits channels size (l.reverse ++ [e]) → Fits channels size l.reverse := by
        intro hf b a hs
        exact hf b (a ++ [e]) (by rw [hs]; simp)
      cases e with
      | some m =>
        refine ⟨done, bs, q ++ [m], step_arrive (size := size) h1 m, ?_, fun hf => ?_⟩
        · show (done ++ bs ++ (q ++ [m])).Sublist (arrived l.reverse ++ [m])
          rw [← List.append_assoc]
          exact h2.append (List.Sublist.refl _)
        · show done ++ bs ++ (q ++ [m]) = arrived l.reverse ++ [m]
          rw [← List.append_assoc, h3 (hfit hf)]
      | none =>
        have hv' : ∀ m ∈ bs ++ q, Valid m := fun m hm => hv m (List.mem_append_left _ (h2.subset (by
          rcases List.mem_append.1 hm with hm | hm <;> simp [hm])))
        obtain ⟨d, rest, lost, b, g1, g2, g3, -, -, -⟩ := step_poll (size := size) h1 hv'
        refine ⟨done ++ d, rest, b, g2, ?_, fun hf => ?_⟩
        · show (done ++ d ++ rest ++ b).Sublist (arrived l.reverse ++ [])
          rw [List.append_nil]
          refine List.Sublist.trans ?_ h2
          rw [List.append_assoc done bs q, g1]
          simp only [List.append_assoc]
          exact List.Sublist.append_left (List.Sublist.append_left (List.Sublist.append_left (List.sublist_append_right _ _) _) _) _
        · show done ++ d ++ rest ++ b = arrived l.reverse ++ []
          have hl := g3 (hf l.reverse [] rfl)
          rw [hl, List.append_nil] at g1
          rw [List.append_nil, ← h3 (hfit hf), List.append_assoc done bs q, g1]
          simp
  have := this h.reverse
  rwa [List.reverse_reverse] at this

theorem poll_queue_nil (channels : List Nat) (size : Nat) {s : State} (h : s.queue = []) : (s.step channels size .poll).queue = [] := by
  simp only [State.step, h]
  split <;> rfl

/-- A call which takes something from a non-empty buffer. -/
theorem poll_shrinks {channels : List Nat} {size : Nat} {s : State} {done d rest : List Msg} (h : Holds channels s done bs q)
    (h' : Holds channels (s.step channels size .poll) (done ++ d) rest b)
    (hn : (s.step channels size .poll).out = s.out → rest = []) : rest = [] ∨ 0 < d.length := by
  cases d with
  | nil =>
    left
    apply hn
    rw [h'.out, h.out, List.append_nil]
  | cons x d => exact .inr (by simp)

/-- As many calls as there are messages in the buffer. -/
theorem drain {channels : List Nat} {size : Nat} (k : Nat) : ∀ {s : State} {done bs : List Msg}, Holds channels s done bs [] → (∀ m ∈ bs, Valid m) →
    bs.length ≤ k → Holds channels (run channels size s (events (List.replicate k none))) (done ++ bs) [] [] := by
  induction k with
  | zero =>
    intro s done bs h hv hk
    have : bs = [] := List.length_eq_zero_iff.1 (by omega)
    subst this
    rw [List.append_nil]
    exact h
  | succ k ih =>
    intro s done bs h hv hk
    obtain ⟨d, rest, lost, b, g1, g2, g3, g4, g5, g6⟩ := step_poll (size := size) h (by simpa using hv)
    have hq := poll_queue_nil channels size (s := s) (by rw [h.queue]; rfl)
    rw [g2.queue, List.map_eq_nil_iff] at hq
    subst hq
    have hl := g3 (fun _ m hm => by rw [h.queue] at hm; simp at hm)
    subst hl
    simp only [List.append_nil] at g1
    have hs := poll_shrinks h g2 (g5 rfl)
    have e := congrArg List.length g1
    rw [List.length_append] at e
    have := ih g2 (fun m hm => hv m (by rw [g1]; exact List.mem_append_right _ hm)) (by
      rcases hs with hs | hs
      · rw [hs]; simp
      · omega)
    rw [List.append_assoc, ← g1] at this
    exact this

theorem arrive_all {channels : List Nat} {size : Nat} (ms : List Msg) : ∀ {s : State} {done bs q : List Msg}, Holds channels s done bs q →
    Holds channels (run channels size s (events (ms.map some))) done bs (q ++ ms) := by
  induction ms with
  | nil => intro s done bs q h; rw [List.append_nil]; exact h
  | cons m ms ih =>
    intro s done bs q h
    have := ih (step_arrive (size := size) h m)
    rw [List.append_assoc] at this
    exact this

theorem wire_pos {m : Msg} (h : Valid m) : 0 < (wire m).length := by
  unfold Valid at h
  split at h <;> first | exact h.elim | simp [wire]

/-- One round which begins with nothing in the buffer. -/
theorem round {channels : List Nat} {size : Nat} {s : State} {done : List Msg} (h : Holds channels s done [] []) (ms : List Msg) (k : Nat)
    (hv : ∀ m ∈ ms, Valid m ∧ (wire m).length ≤ size) (hk : ms.length ≤ k) :
    Holds channels (run channels size s (events (ms.map some ++ List.replicate k none))) (done ++ ms) [] [] := by
  rw [events_append, run_append]
  have h1 := arrive_all (size := size) ms h
  generalize run channels size s (events (ms.map some)) = s1 at h1
  rw [List.nil_append] at h1
  cases k with
  | zero =>
    have : ms = [] := List.length_eq_zero_iff.1 (by omega)
    subst this
    rw [List.append_nil]
    exact h1
  | succ k =>
    by_cases hms : ms = []
    · subst hms
      exact drain (k + 1) h1 (by simp) (by simp)
    obtain ⟨d, rest, lost, b, g1, g2, g3, g4, g5, g6⟩ := step_poll (size := size) h1 (fun m hm => (hv m (by simpa using hm)).1)
    have hb : s1.buf = [] := h1.buf
    have hfit : s1.buf.length < size → ∀ m ∈ s1.queue, m.length ≤ size - s1.buf.length := by
      intro _ m hm
      rw [h1.queue] at hm
      obtain ⟨x, hx, rfl⟩ := List.mem_map.1 hm
      rw [hb]
      exact (hv x hx).2
    have hsize : s1.buf.length < size := by
      rw [hb]
      cases ms with
      | nil => exact absurd rfl hms
      | cons m ms =>
        have := hv m List.mem_cons_self
        have hw := wire_pos this.1
        show 0 < size
        omega
    have hl := g3 hfit
    subst hl
    have hb' := g4 hfit hsize
    subst hb'
    simp only [List.append_nil, List.nil_append] at g1
    have hs := poll_shrinks h1 g2 (g6 hsize rfl)
    have e := congrArg List.length g1
    rw [List.length_append] at e
    have := drain (size := size) k g2 (fun m hm => (hv m (by rw [g1]; exact List.mem_append_right _ hm)).1) (by
      rcases hs with hs | hs
      · rw [hs]; simp
      · omega)
    rw [List.append_assoc, ← g1] at this
    exact this

theorem rounds_holds {channels : List Nat} {size : Nat} (rs : List (List Msg × Nat)) : ∀ {s : State} {done : List Msg}, Holds channels s done [] [] →
    (∀ r ∈ rs, (∀ m ∈ r.1, Valid m ∧ (wire m).length ≤ size) ∧ r.1.length ≤ r.2) →
    Holds channels (run channels size s (events (rounds rs))) (done ++ rs.flatMap (·.1)) [] [] := by
  induction rs with
  | nil => intro s done h _; rw [List.flatMap_nil, List.append_nil]; exact h
  | cons r rs ih =>
    intro s done h hr
    have h1 := round (size := size) h r.1 r.2 (hr r List.mem_cons_self).1 (hr r List.mem_cons_self).2
    have := ih h1 fun x hx => hr x (List.mem_cons_of_mem _ hx)
    rw [List.append_assoc, ← run_append, ← events_append] at this
    rw [List.flatMap_cons]
    exact this

end PySwitch.EmulatorMidi
