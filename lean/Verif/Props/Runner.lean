import Verif.Lemmas.Runner

/-!
C144: In the editor there is one engine at a time; starting and stopping it work.

`run es` is the state after the events `es`: calls of `run()` and `stop()`, their continuations after each `await`, and timeouts of the engines.
-/

namespace PySwitch.Props
open PySwitch.Runner PySwitch.Runner.Spec

/-- When calls are made one after the other, there is at most one timeout for ticks, of the current engine. So engines which have been replaced never tick
again. It is missing that this holds for overlapping calls (see `C144_overlap_witness`, `C144_double_witness`). -/
theorem C144_one_engine_partial (es : List Ev) (hs : Sequential es) (k : Nat) (hk : 0 < ((run es).engine k).pending) :
    (run es).current = some k ∧ ((run es).engine k).pending = 1 ∧ ∀ j, j ≠ k → ((run es).engine j).pending = 0 := by
  have h := inv_run es hs
  have hc := fire_current h (k := k) (by omega)
  have := (h.small k).1
  exact ⟨hc, by omega, fun j hj => h.others j (by rw [hc]; simpa using Ne.symm hj)⟩

/-- Whatever is logged next is a tick of the current engine. -/
theorem C144_ticks_partial (es : List Ev) (hs : Sequential es) (k : Nat) (ok : Bool) (hl : (run (es ++ [.fire k ok])).log ≠ (run es).log) :
    (run es).current = some k ∧ (run (es ++ [.fire k ok])).log = (run es).log ++ [(k, ok)] := by
  have h := inv_run es hs
  rw [run_append] at hl ⊢
  simp only [List.foldl_cons, List.foldl_nil] at hl ⊢
  by_cases hp : ((run es).engine k).pending = 0
  · simp only [State.step, if_pos hp] at hl
    exact absurd rfl hl
  · have hc := fire_current h hp
    obtain ⟨-, -, -, -, hlog⟩ := fire_frame (run es) (h.bound k hc) hp ok
    refine ⟨hc, ?_⟩
    rw [hlog] at hl ⊢
    by_cases ht : ((run es).engine k).triggerStop = true
    · rw [if_pos ht] at hl
      exact absurd rfl hl
    · rw [if_neg ht]

/-- When `stop()` is over, nothing happens any more, whichever timeouts come. -/
theorem C144_stopped_partial (es : List Ev) (hs : Sequential es) (hl : lastCall (run es) = some ⟨.stop, .done⟩) (more : List Ev)
    (ho : OnlyTimeouts more) : run (es ++ more) = run es := by
  have h := inv_run es hs
  rw [run_append]
  refine quiet (fun k => h.others k ?_) more ho
  have : (run es).current = none := h.last _ hl
  rw [this]
  simp

/-- When `run(config)` is over, the current engine works with this configuration: it ticks at its next timeout, unless an earlier tick of it has
failed. -/
theorem C144_run_partial (es : List Ev) (hs : Sequential es) (cfg : Nat) (hl : lastCall (run es) = some ⟨.run cfg false, .done⟩) :
    ∃ k, (run es).current = some k ∧ ((run es).engine k).config = some cfg ∧
      ((k, false) ∈ (run es).log ∨ ∀ ok, (run (es ++ [.fire k ok])).log = (run es).log ++ [(k, ok)]) := by
  have h := inv_run es hs
  obtain ⟨k, hk, hc, -, hr⟩ := h.last _ hl
  refine ⟨k, hk, hc, ?_⟩
  rcases hr rfl with ⟨hp, -, ht⟩ | hr
  · right
    intro ok
    rw [run_append]
    obtain ⟨-, -, -, -, hlog⟩ := fire_frame (run es) (h.bound k hk) (by omega) ok
    simp only [List.foldl_cons, List.foldl_nil]
    rw [hlog, ht]
    rfl
  · exact .inl hr

/-- `stop()` ends when no configuration had an error: after the next timeout of the current engine it goes on. It is missing that it ends also after such an
error (see `C144_broken_config_witness`). -/
theorem C144_stop_ends_partial (es : List Ev) (hs : Sequential es) (hn : NoInitFailure es) (c : Call)
    (hl : lastCall (run es) = some ⟨c, .stopping⟩) :
    ∃ k, (run es).current = some k ∧ ∀ ok out,
      lastCall (run (es ++ [.fire k ok, .resume ((run es).tasks.length - 1) out])) = some ⟨c, if c = .stop then .done else .reading⟩ := by
  have h := inv_run es hs
  have ha := alive_run es hs hn
  obtain ⟨k, hk, ht⟩ := h.last _ hl
  refine ⟨k, hk, fun ok out => ?_⟩
  rw [run_append]
  simp only [List.foldl_cons, List.foldl_nil]
  have key : ((run es).step (.fire k ok)).current = some k ∧ ((run es).step (.fire k ok)).tasks = (run es).tasks ∧
      (((run es).step (.fire k ok)).engine k).running = false := by
    by_cases hp : ((run es).engine k).pending = 0
    · simp only [State.step, if_pos hp]
      refine ⟨hk, trivial, ?_⟩
      cases hr : ((run es).engine k).running with
      | false => rfl
      | true => exact absurd (ha k hr) (by omega)
    · obtain ⟨a, b, -, -, -⟩ := fire_frame (run es) (h.bound k hk) hp ok
      refine ⟨a.trans hk, b, ?_⟩
      rw [fire_engine h hp, if_pos rfl, if_pos ht]
  obtain ⟨h1, h2, h3⟩ := key
  generalize (run es).step (.fire k ok) = s at h1 h2 h3
  have hl' : s.tasks[(run es).tasks.length - 1]? = some ⟨c, .stopping⟩ := by
    rw [h2]
    rw [lastCall, List.getLast?_eq_getElem?] at hl
    exact hl
  have hw : s.waits = false := by
    unfold State.waits
    rw [h1]
    exact h3
  have hlt := (List.getElem?_eq_some_iff.1 hl').1
  simp only [State.step, hl', State.resume, hw, Bool.false_eq_true, if_false, lastCall]
  rw [List.getLast?_eq_getElem?, List.length_set, ← h2, List.getElem?_set, if_pos rfl, if_pos (by rw [← h2] at hlt; exact hlt)]
  cases c <;> rfl

/-- Load configuration 1, tick twice, load configuration 2 (the engine ends at its next timeout), tick, and stop. -/
def c144History : List Ev :=
  [.call (.run 1 false), .resume 0 .ok, .resume 0 .ok, .resume 0 .ok, .fire 0 true, .fire 0 true,
   .call (.run 2 false), .resume 1 .ok, .fire 0 true, .resume 1 .ok, .resume 1 .ok, .resume 1 .ok, .resume 1 .ok, .fire 1 true]

/-- To decide if a history is sequential: check at each call. -/
theorem c144_sequential (es : List Ev)
    (h : ∀ n, n < es.length → (∃ c, es[n]? = some (Ev.call c)) → ∀ t ∈ (run (es.take n)).tasks, t.phase = .done ∨ t.phase = .failed) : Sequential es := by
  intro before c after e t ht
  have hn := h before.length (by rw [e]; simp) ⟨c, by rw [e]; simp⟩ t
  rw [e, List.take_left'  rfl] at hn
  exact hn ht

theorem c144History_sequential : Sequential c144History := by
  refine c144_sequential _ fun n hn ⟨c, hc⟩ => ?_
  have : n = 0 ∨ n = 6 := by
    have : n < 14 := hn
    have cases14 : n = 0 ∨ n = 1 ∨ n = 2 ∨ n = 3 ∨ n = 4 ∨ n = 5 ∨ n = 6 ∨ n = 7 ∨ n = 8 ∨ n = 9 ∨ n = 10 ∨ n = 11 ∨ n = 12 ∨ n = 13 := by omega
    rcases cases14 with h | h | h | h | h | h | h | h | h | h | h | h | h | h <;> subst h <;> simp_all [c144History]
  rcases this with rfl | rfl <;> decide

example : lastCall (run c144History) = some ⟨.run 2 false, .done⟩ ∧ (run c144History).log = [(0, true), (0, true), (0, true), (1, true), (1, true)] ∧
    0 < ((run c144History).engine 1).pending := by decide

example : lastCall (run (c144History ++ [.call .stop])) = some ⟨.stop, .stopping⟩ := by decide

example : lastCall (run (c144History ++ [.call .stop, .fire 1 true, .resume 2 .ok])) = some ⟨.stop, .done⟩ := by decide

example : NoInitFailure c144History := by
  intro i
  simp [c144History]

/-- Two calls of `run()` which overlap, such as from two restarts shortly after each other: both have stopped the engine before, the first one starts
engine 0 and the second one starts engine 1. Then `stop()` is called and ends, but engine 0 ticks on forever. -/
theorem C144_overlap_witness : ∃ es, lastCall (run es) = some ⟨.stop, .done⟩ ∧ (∀ t ∈ (run es).tasks, t.phase = .done) ∧
    ∀ n, (run (es ++ List.replicate n (.fire 0 true))).log = (run es).log ++ List.replicate n (0, true) := by
  refine ⟨[.call (.run 1 false), .call (.run 2 false), .resume 0 .ok, .resume 0 .ok, .resume 0 .ok, .resume 1 .ok, .resume 1 .ok, .resume 1 .ok,
    .call .stop, .fire 1 true, .resume 2 .ok], by decide, by decide, fun n => ?_⟩
  rw [run_append]
  have hrep : ∀ (s : State), s.engines[0]? = some ⟨true, false, 1, some 1⟩ →
      ∀ n, ((List.replicate n (Ev.fire 0 true)).foldl State.step s).log = s.log ++ List.replicate n (0, true) := by
    intro s hs n
    induction n generalizing s with
    | zero => simp
    | succ n ih =>
      have he : s.engine 0 = ⟨true, false, 1, some 1⟩ := by simp [State.engine, hs]
      have hlt := (List.getElem?_eq_some_iff.1 hs).1
      have hp : (s.engine 0).pending ≠ 0 := by rw [he]; simp
      have hlog : (s.step (.fire 0 true)).log = s.log ++ [(0, true)] := by
        rw [(fire_frame s hlt hp true).2.2.2.2, he]
        rfl
      have hst : (s.step (.fire 0 true)).engines[0]? = some ⟨true, false, 1, some 1⟩ := by
        have h1 : (s.update 0 fun e => { e with pending := e.pending - 1 }).engines[0]? = some ⟨true, false, 0, some 1⟩ := by
          simp [State.update, hs]
        have h2 : (s.update 0 fun e => { e with pending := e.pending - 1 }).engine 0 = ⟨true, false, 0, some 1⟩ := by simp [State.engine, h1]
        simp only [State.step, if_neg hp, State.tick, h2, Bool.not_false, if_true]
        show (State.update _ 0 _).engines[0]? = _
        generalize (s.update 0 fun e => { e with pending := e.pending - 1 }) = s1 at h1
        simp [State.update, h1]
      rw [List.replicate_succ, List.foldl_cons, ih _ hst, hlog, List.append_assoc, List.replicate_succ]
      rfl
  exact hrep _ (by decide) n

/-- Two calls of `run()` which overlap may also start the same engine twice, which then ticks twice as often, and with the configuration of only one of
them. -/
theorem C144_double_witness : ∃ es, (∀ t ∈ (run es).tasks, t.phase = .done) ∧ (run es).current = some 1 ∧ ((run es).engine 1).pending = 2 ∧
    (run es).tasks.length = 2 := by
  refine ⟨[.call (.run 1 false), .call (.run 2 false), .resume 0 .ok, .resume 0 .ok, .resume 1 .ok, .resume 1 .ok, .resume 0 .ok, .resume 1 .ok], ?_, ?_, ?_, ?_⟩ <;>
    decide

/-- After a configuration with an error (`init` of the engine fails), no call of `run()` or `stop()` ever ends, whatever happens: the engine counts as running,
but has no timeout which would end it. The calls are made one after the other as far as they end. -/
theorem C144_broken_config_witness : ∃ es, Sequential es ∧ lastCall (run es) = some ⟨.run 1 false, .failed⟩ ∧ (run es).tasks.length = 1 ∧
    ∀ more i t, (run (es ++ more)).tasks[i]? = some t → 0 < i → t.phase = .stopping := by
  refine ⟨[.call (.run 1 false), .resume 0 .ok, .resume 0 .ok, .resume 0 .initFails], ?_, by decide, by decide, fun more i t hi hp => ?_⟩
  · refine c144_sequential _ fun n hn ⟨c, hc⟩ => ?_
    have : n = 0 := by
      have : n < 4 := hn
      have : n = 0 ∨ n = 1 ∨ n = 2 ∨ n = 3 := by omega
      rcases this with h | h | h | h <;> subst h <;> simp_all
    subst this
    decide
  · rw [run_append] at hi
    refine (stuck_run ?_ more).waits i t hi hp
    have e : run [.call (.run 1 false), .resume 0 .ok, .resume 0 .ok, .resume 0 .initFails] =
        ⟨[⟨true, false, 0, none⟩], some 0, 1, [⟨.run 1 false, .failed⟩], []⟩ := by decide
    rw [e]
    refine ⟨rfl, by simp, rfl, fun k => ?_, ⟨_, rfl, rfl⟩, fun i t hi hp => ?_⟩
    · cases k <;> simp [State.engine]
    · obtain ⟨i, rfl⟩ : ∃ j, i = j + 1 := ⟨i - 1, by omega⟩
      simp at hi

end PySwitch.Props
