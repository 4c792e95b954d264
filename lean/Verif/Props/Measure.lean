import Verif.Spec.Measure
/-
Property C59: runtime measurements.
-/
namespace PySwitch.Props
open PySwitch PySwitch.Measure

private theorem sum_bounds (l : List Int) (lo hi : Int) (h : ∀ d ∈ l, lo ≤ d ∧ d ≤ hi) :
    lo * l.length ≤ l.sum ∧ l.sum ≤ hi * l.length := by
  induction l with
  | nil => simp
  | cons a l ih =>
    have h1 := h a (by simp)
    have h2 := ih (fun d hd => h d (by simp [hd]))
    simp only [List.sum_cons, List.length_cons, Int.natCast_add, Int.natCast_one, Int.mul_add, Int.mul_one]
    omega

/-- What holds after every history. -/
structure Inv (m : RuntimeMeasurement) (o : Open) : Prop where
  start : (m.startTime = 0 ∧ o.start = none) ∨ (m.startTime > 0 ∧ o.start = some m.startTime)
  num : m.num = o.times.length
  sum : m.aggr = o.times.sum
  nonneg : ∀ d ∈ o.times, 0 ≤ d
  upper : ∀ d ∈ o.times, d ≤ m.value
  max : m.value ∈ o.times ∨ m.value = 0

private theorem inv_tells {m : RuntimeMeasurement} {o : Open} (h : Inv m o) : Tells m o.times := by
  refine ⟨h.num, h.sum, h.upper, h.max, ?_, ?_⟩
  · intro he
    have := h.max
    rw [he] at this
    have hn := h.num
    rw [he] at hn
    simp at this hn
    exact ⟨this, by simp [RuntimeMeasurement.average, hn]⟩
  · intro lo hi hne hb
    obtain ⟨h1, h2⟩ := sum_bounds o.times lo hi hb
    have hpos : 0 < o.times.length := by cases ht : o.times with | nil => exact absurd ht hne | cons a l => simp
    have hs : 0 ≤ o.times.sum := by
      have := (sum_bounds o.times 0 m.value (fun d hd => ⟨h.nonneg d hd, h.upper d hd⟩)).1
      omega
    unfold RuntimeMeasurement.average
    rw [if_neg (by rw [h.num]; omega), h.sum, h.num, Int.tdiv_eq_ediv_of_nonneg hs]
    constructor
    · exact (Int.le_ediv_iff_mul_le (by omega)).2 h1
    · refine Int.lt_add_one_iff.1 ((Int.ediv_lt_iff_lt_mul (by omega)).2 ?_)
      have : (hi + 1) * (o.times.length : Int) = hi * o.times.length + o.times.length := by rw [Int.add_mul, Int.one_mul]
      omega

private theorem inv_run (es : List MeasureEvent) (m : RuntimeMeasurement) (o : Open) (last : Int) (hi : Inv m o)
    (hl : ∀ s, o.start = some s → s ≤ last) (hp : ∀ e ∈ es, 0 < time e ∧ last ≤ time e)
    (hc : es.Pairwise (fun a b => time a ≤ time b)) :
    Inv (m.run es).2 ((m.run es).1.foldl track o) ∧
    ∀ pre t r post, (m.run es).1 = pre ++ (.update t, some r) :: post → Tells r (pre.foldl track o).times := by
  induction es generalizing m o last with
  | nil => exact ⟨hi, fun pre t r post h => by simp [RuntimeMeasurement.run] at h⟩
  | cons e es ih =>
    rw [List.pairwise_cons] at hc
    have he := hp e (by simp)
    have hnext : ∀ x ∈ es, 0 < time x ∧ time e ≤ time x := fun x hx => ⟨(hp x (by simp [hx])).1, hc.1 x hx⟩
    have key : Inv (m.step e).1 (track o (e, (m.step e).2)) ∧
        (∀ s, (track o (e, (m.step e).2)).start = some s → s ≤ time e) ∧
        (∀ r, (m.step e).2 = some r → Tells r o.times) := by
      cases e with
      | start t =>
        refine ⟨⟨.inr ⟨he.1, rfl⟩, hi.num, hi.sum, hi.nonneg, hi.upper, hi.max⟩, ?_, by simp [RuntimeMeasurement.step]⟩
        intro s hs
        simp only [track, Option.some.injEq] at hs
        simp [time, hs]
      | finish t =>
        simp only [RuntimeMeasurement.step, RuntimeMeasurement.finish, track, time] at he ⊢
        rcases hi.start with ⟨h0, hn⟩ | ⟨h0, hs⟩
        · rw [if_pos h0, hn]
          exact ⟨hi, by simp [hn], by simp⟩
        · rw [if_neg (by omega), hs]
          have hlt := hl _ hs
          refine ⟨⟨.inr ⟨h0, rfl⟩, by simp [hi.num], by simp [hi.sum], ?_, ?_, ?_⟩, ?_, by simp⟩
          · intro d hd
            simp only [List.mem_append, List.mem_singleton] at hd
            rcases hd with hd | rfl
            · exact hi.nonneg d hd
            · omega
          · intro d hd
            simp only [List.mem_append, List.mem_singleton] at hd
            simp only
            rcases hd with hd | rfl
            · have := hi.upper d hd; split <;> omega
            · split <;> omega
          · simp only [List.mem_append, List.mem_singleton]
            split
            · exact .inl (.inr rfl)
            · rcases hi.max with hm | hm
              · exact .inl (.inl hm)
              · exact .inr hm
          · intro s hs'
            simp only [Option.some.injEq] at hs'
            omega
      | update t =>
        simp only [RuntimeMeasurement.step, RuntimeMeasurement.update, time] at he ⊢
        by_cases hx : m.lastOutput + m.intervalMillis < t
        · rw [if_pos hx]
          refine ⟨⟨.inl ⟨rfl, rfl⟩, rfl, rfl, by simp [track], by simp [track], .inr rfl⟩, by simp [track], ?_⟩
          intro r hr
          simp only [Option.some.injEq] at hr
          subst hr
          have := inv_tells hi
          exact ⟨this.1, this.2, this.3, this.4, this.5, this.6⟩
        · rw [if_neg hx]
          refine ⟨hi, ?_, by simp⟩
          intro s hs
          simp only [track] at hs
          have := hl s hs
          omega
    obtain ⟨k1, k2, k3⟩ := key
    obtain ⟨i1, i2⟩ := ih (m.step e).1 _ (time e) k1 k2 hnext hc.2
    refine ⟨i1, ?_⟩
    intro pre t r post h
    simp only [RuntimeMeasurement.run] at h
    cases pre with
    | nil =>
      simp only [List.nil_append, List.cons.injEq, Prod.mk.injEq] at h
      exact k3 r h.1.2
    | cons x pre =>
      simp only [List.cons_append, List.cons.injEq] at h
      obtain ⟨rfl, h⟩ := h
      exact i2 pre t r post h

/-- C59, for a clock which does not go back and has left zero: after every history of calls, number, sum, maximum and average
are those of the times measured since the last report, and so is what the listeners see. -/
theorem C59_stats_partial (interval : Int) (es : List MeasureEvent) (hp : ∀ e ∈ es, 0 < time e)
    (hc : es.Pairwise (fun a b => time a ≤ time b)) :
    let r := (RuntimeMeasurement.mk interval 0 0 0 0 0 0).run es
    Tells r.2 (open_ r.1).times ∧
    ∀ pre t m post, r.1 = pre ++ (.update t, some m) :: post → Tells m (open_ pre).times := by
  intro r
  obtain ⟨h1, h2⟩ := inv_run es (RuntimeMeasurement.mk interval 0 0 0 0 0 0) {} 0
    ⟨.inl ⟨rfl, rfl⟩, rfl, rfl, by simp, by simp, .inr rfl⟩ (by simp) (fun e he => ⟨hp e he, Int.le_of_lt (hp e he)⟩) hc
  exact ⟨inv_tells h1, h2⟩

/-- C59. A measurement started when the clock shows zero is lost. -/
theorem C59_zero_start : ((RuntimeMeasurement.mk 1000 0 0 0 0 0 0).run [.start 0, .finish 25]).2.num = 0 := by decide

/-- C59. An update reports exactly if more than the interval has passed since the last report (or since the clock started);
afterwards everything is zero. -/
theorem C59_report (interval : Int) (es : List MeasureEvent) (t : Int) :
    let r := (RuntimeMeasurement.mk interval 0 0 0 0 0 0).run es
    let u := r.2.step (.update t)
    (u.2.isSome ↔ ((reports r.1).getLast?.getD 0) + interval < t) ∧
    (u.2.isSome → u.1.num = 0 ∧ u.1.aggr = 0 ∧ u.1.value = 0 ∧ u.1.average = 0) := by
  have key : ∀ (es : List MeasureEvent) (m : RuntimeMeasurement),
      (m.run es).2.intervalMillis = m.intervalMillis ∧
      (m.run es).2.lastOutput = (reports (m.run es).1).getLast?.getD m.lastOutput := by
    intro es
    induction es with
    | nil => intro m; exact ⟨rfl, rfl⟩
    | cons e es ih =>
      intro m
      simp only [RuntimeMeasurement.run]
      obtain ⟨h1, h2⟩ := ih (m.step e).1
      cases e with
      | start t => exact ⟨h1, by rw [h2]; rfl⟩
      | finish t =>
        have hs : (m.step (.finish t)).1.intervalMillis = m.intervalMillis ∧ (m.step (.finish t)).1.lastOutput = m.lastOutput := by
          simp only [RuntimeMeasurement.step, RuntimeMeasurement.finish]
          split <;> exact ⟨rfl, rfl⟩
        exact ⟨h1.trans hs.1, by rw [h2, hs.2]; rfl⟩
      | update t =>
        simp only [RuntimeMeasurement.step, RuntimeMeasurement.update] at h1 h2 ⊢
        by_cases hx : m.lastOutput + m.intervalMillis < t
        · simp only [hx, if_true] at h1 h2 ⊢
          refine ⟨h1, ?_⟩
          rw [h2]
          simp only [reports, List.filterMap_cons, List.getLast?_cons, Option.getD_some]
          rfl
        · simp only [hx, if_false] at h1 h2 ⊢
          exact ⟨h1, h2⟩
  intro r u
  obtain ⟨h1, h2⟩ := key es (RuntimeMeasurement.mk interval 0 0 0 0 0 0)
  simp only [u, RuntimeMeasurement.step, RuntimeMeasurement.update]
  rw [show r.2.intervalMillis = interval from h1, show r.2.lastOutput = _ from h2]
  by_cases hx : (reports r.1).getLast?.getD 0 + interval < t
  · rw [if_pos (by exact hx)]
    exact ⟨by simp [hx], fun _ => ⟨rfl, rfl, rfl, rfl⟩⟩
  · rw [if_neg (by exact hx)]
    exact ⟨by simp [hx], by simp⟩

example :
    ((RuntimeMeasurement.mk 1000 0 0 0 0 0 0).run [.start 100, .finish 110, .start 120, .finish 150, .update 200, .start 900,
      .update 1001, .finish 1100, .start 1200, .finish 1207]).2.num = 1 ∧
    (open_ ((RuntimeMeasurement.mk 1000 0 0 0 0 0 0).run [.start 100, .finish 110, .start 120, .finish 150, .update 200,
      .start 900, .update 1001, .finish 1100, .start 1200, .finish 1207]).1).times = [7] := by decide

example :
    reports ((RuntimeMeasurement.mk 1000 0 0 0 0 0 0).run [.start 100, .finish 110, .update 200, .start 900, .update 1001,
      .update 1900, .update 2002]).1 = [1001, 2002] := by decide

end PySwitch.Props
