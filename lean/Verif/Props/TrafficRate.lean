import Verif.Spec.TrafficRate
/-!
C184: The virtual device shows the messages and the rates of the last second.
-/
namespace PySwitch.Props
open PySwitch.TrafficRate PySwitch.TrafficRate.Spec

namespace C184

theorem run_append (s : State α) (a b : List (Ev α)) : s.run (a ++ b) = (s.run a).run b := List.foldl_append

theorem quiet_run (es : List (Ev α)) (h : Quiet es) : ∀ s : State α, (s.run es).received = s.received ++ receivedOf es ∧ (s.run es).sent = s.sent ++ sentOf es ∧
    (s.run es).lastTime = s.lastTime := by
  induction es with
  | nil => intro s; exact ⟨by simp [State.run, receivedOf], by simp [State.run, sentOf], rfl⟩
  | cons e es ih =>
    intro s
    have ih := ih (fun x hx => h x (List.mem_cons_of_mem _ hx)) (s.step e)
    cases e with
    | received m =>
      refine ⟨ih.1.trans ?_, ih.2.1.trans ?_, ih.2.2⟩
      · show (s.received ++ [m]) ++ receivedOf es = _
        simp [receivedOf]
      · rfl
    | sent m =>
      refine ⟨ih.1.trans ?_, ih.2.1.trans ?_, ih.2.2⟩
      · rfl
      · show (s.sent ++ [m]) ++ sentOf es = _
        simp [sentOf]
    | measure t => exact absurd rfl (h _ List.mem_cons_self t)

theorem after_measure (s : State α) (t : Nat) (es : List (Ev α)) (h : Quiet es) (t' : Nat) :
    (s.run (.measure t :: es ++ [.measure t'])) = takeMeasure ⟨(takeMeasure s t).data, sentOf es, receivedOf es, t, ((takeMeasure s t).run es).shown⟩ t' := by
  have hq := quiet_run es h (takeMeasure s t)
  rw [run_append]
  show takeMeasure ((takeMeasure s t).run es) t' = _
  generalize (takeMeasure s t).run es = u at hq
  obtain ⟨d, a, b, l, sh⟩ := u
  obtain ⟨h1, h2, h3⟩ := hq
  simp only at h1 h2 h3
  subst h1 h2 h3
  rfl

end C184

/-- After each measurement the lists of the last second are exactly the messages since the measurement before, in their order, whatever has happened before. -/
theorem C184_messages (now t t' : Nat) (before es : List (Ev α)) (h : Quiet es) :
    ((init now).run (before ++ .measure t :: es ++ [.measure t'])).data.messagesReceived = receivedOf es ∧
    ((init now).run (before ++ .measure t :: es ++ [.measure t'])).data.messagesSent = sentOf es := by
  have e : before ++ .measure t :: es ++ [.measure t'] = before ++ (.measure t :: es ++ [.measure t']) := by simp
  rw [e, C184.run_append, C184.after_measure _ t es h t']
  exact ⟨rfl, rfl⟩

/-- The same for the first measurement after the start. -/
theorem C184_first (now t : Nat) (es : List (Ev α)) (h : Quiet es) :
    ((init now).run (es ++ [.measure t])).data.messagesReceived = receivedOf es ∧ ((init now).run (es ++ [.measure t])).data.messagesSent = sentOf es := by
  rw [C184.run_append]
  have hq := C184.quiet_run es h (init now)
  exact ⟨hq.1.trans (List.nil_append _), hq.2.1.trans (List.nil_append _)⟩

/-- If the timer is exact, the shown rates are the numbers of messages per second. -/
theorem C184_rate_partial (now t : Nat) (before es : List (Ev α)) (h : Quiet es) :
    ∃ r s, ((init now).run (before ++ .measure t :: es ++ [.measure (t + 1000)])).shown = some (r, s) ∧
      PerSecond (receivedOf es).length 1000 r ∧ PerSecond (sentOf es).length 1000 s := by
  have e : before ++ .measure t :: es ++ [.measure (t + 1000)] = before ++ (.measure t :: es ++ [.measure (t + 1000)]) := by simp
  rw [e, C184.run_append, C184.after_measure _ t es h]
  refine ⟨_, _, rfl, ?_, ?_⟩
  · simp only [PerSecond, rate]; omega
  · simp only [PerSecond, rate]; omega

example : Quiet [Ev.received 1, .sent 2, .received 3] ∧ receivedOf [Ev.received 1, .sent 2, .received 3] = [1, 3] := by
  refine ⟨?_, rfl⟩
  intro e he t
  simp only [List.mem_cons, List.not_mem_nil, or_false] at he
  rcases he with rfl | rfl | rfl <;> (intro h; cases h)

/-- Whatever the timer does, the shown numbers are rounded to the nearest whole number, halves upwards. (Of the number of messages multiplied by the seconds, see `C184_late`.) -/
theorem C184_rounded (now t d : Nat) (before es : List (Ev α)) (h : Quiet es) :
    ∃ r s, ((init now).run (before ++ .measure t :: es ++ [.measure (t + d)])).shown = some (r, s) ∧
      ((2 * r - 1) * 1000 ≤ 2 * (((receivedOf es).length * d : Nat) : Int) ∧ 2 * (((receivedOf es).length * d : Nat) : Int) < (2 * r + 1) * 1000) ∧
      ((2 * s - 1) * 1000 ≤ 2 * (((sentOf es).length * d : Nat) : Int) ∧ 2 * (((sentOf es).length * d : Nat) : Int) < (2 * s + 1) * 1000) := by
  have e : before ++ .measure t :: es ++ [.measure (t + d)] = before ++ (.measure t :: es ++ [.measure (t + d)]) := by simp
  have hr : ∀ n : Nat, rate n (t + d) t = (((n * d : Nat) : Int) * 2 + 1000) / 2000 := by
    intro n
    have hd : (((t + d : Nat) : Int) - t) = (d : Int) := by omega
    rw [rate, hd, Int.natCast_mul]
  rw [e, C184.run_append, C184.after_measure _ t es h]
  simp only [takeMeasure, hr]
  refine ⟨_, _, rfl, ?_, ?_⟩
  · generalize (receivedOf es).length * d = x; omega
  · generalize (sentOf es).length * d = x; omega

/-- If the timer is late, the shown rates are too high: after `k` seconds they are the number of messages multiplied by `k` instead of divided by it. -/
theorem C184_late (now t k : Nat) (before es : List (Ev α)) (h : Quiet es) :
    ((init now).run (before ++ .measure t :: es ++ [.measure (t + 1000 * k)])).shown = some (((receivedOf es).length : Int) * k, ((sentOf es).length : Int) * k) := by
  have e : before ++ .measure t :: es ++ [.measure (t + 1000 * k)] = before ++ (.measure t :: es ++ [.measure (t + 1000 * k)]) := by simp
  have hr : ∀ n : Nat, rate n (t + 1000 * k) t = (n : Int) * k := by
    intro n
    have hd : (((t + 1000 * k : Nat) : Int) - t) = 1000 * (k : Int) := by omega
    have hm : (n : Int) * (1000 * (k : Int)) = 1000 * ((n : Int) * k) := Int.mul_left_comm _ _ _
    rw [rate, hd, hm]
    omega
  rw [e, C184.run_append, C184.after_measure _ t es h]
  simp only [takeMeasure, hr]

/-- Ten messages in two seconds, which are five per second, are shown as twenty per second. -/
theorem C184_late_witness : ∃ es : List (Ev Unit), Quiet es ∧ (receivedOf es).length = 10 ∧ (sentOf es).length = 0 ∧
    ((init 0).run ([] ++ .measure 1000 :: es ++ [.measure 3000])).shown = some (20, 0) ∧ PerSecond 10 2000 5 ∧ ¬ PerSecond 10 2000 20 := by
  refine ⟨List.replicate 10 (.received ()), ?_, by decide, by decide, by decide, ?_, ?_⟩
  · intro e he t h
    rw [List.eq_of_mem_replicate he] at h
    cases h
  · simp only [PerSecond]; omega
  · simp only [PerSecond]; omega

end PySwitch.Props
