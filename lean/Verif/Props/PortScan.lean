import Verif.Lemmas.PortScan

/-!
C142: the search for ports with a device behind.
-/

namespace PySwitch.Props
open PySwitch.PortScan PySwitch.PortScan.Spec

/-- C142 (partial: the ports have different names): the search has a result at most once. It is a success with a port exactly if the first answer
in time came from there, and a failure exactly if the time of all ports is over without an answer in time. -/
theorem C142_search_partial (names : List String) (distinct : names.Nodup) (keep : Bool) (es : List Ev) :
    (run names keep es).calls.length ≤ 1 ∧
    (∀ i, Call.success i ∈ (run names keep es).calls ↔ FirstAnswer names.length es i) ∧
    (Call.failure ∈ (run names keep es).calls ↔ NoAnswer names.length es ∧ AllOver names.length es) := by
  cases good_run distinct keep es with
  | waiting h hl hs =>
    rw [hs]
    refine ⟨by simp [waiting], fun i => ⟨fun hm => by simp [waiting] at hm, fun hf => (first_not_no hf h).elim⟩, fun hm => by simp [waiting] at hm, ?_⟩
    intro ⟨_, ha⟩
    obtain ⟨i, hi⟩ := List.exists_mem_of_ne_nil _ hl
    have := mem_left.1 hi
    exact absurd (ha i this.1) this.2
  | success i h hs =>
    rw [hs]
    refine ⟨by simp [over], fun j => ⟨fun hm => ?_, fun hf => ?_⟩, fun hm => by simp [over] at hm, fun hf => (first_not_no h hf.1).elim⟩
    · simp only [over, List.mem_singleton, Call.success.injEq] at hm
      rw [hm]
      exact h
    · simp [over, first_unique hf h]
  | failure h ha hs =>
    rw [hs]
    exact ⟨by simp [over], fun i => ⟨fun hm => by simp [over] at hm, fun hf => (first_not_no hf h).elim⟩, fun _ => ⟨h, ha⟩, fun _ => by simp [over]⟩

/-- C142: when there is a result, no attempt listens any more, except the one with success if this is wanted (for a controller). Before, those
which can still answer do. -/
theorem C142_listeners (names : List String) (distinct : names.Nodup) (keep : Bool) (es : List Ev) :
    (∀ i, (run names keep es).calls = [.success i] → (run names keep es).listeners = if keep then [i] else []) ∧
    ((run names keep es).calls = [.failure] → (run names keep es).listeners = []) ∧
    ((run names keep es).calls = [] → ∀ i, i ∈ (run names keep es).listeners ↔ Open names.length es i) := by
  cases good_run distinct keep es with
  | waiting h hl hs =>
    rw [hs]
    exact ⟨fun i e => by simp [waiting] at e, fun e => by simp [waiting] at e, fun _ i => mem_left⟩
  | success i h hs =>
    rw [hs]
    refine ⟨fun j e => ?_, fun e => by simp [over] at e, fun e => by simp [over] at e⟩
    simp only [over, List.cons.injEq, Call.success.injEq, and_true] at e
    rw [← e]
    rfl
  | failure h ha hs =>
    rw [hs]
    exact ⟨fun i e => by simp [over] at e, fun _ => rfl, fun e => by simp [over] at e⟩

/-- C142, for all names of ports: there is never a failure after a success. -/
theorem C142_no_failure_after_success (names : List String) (keep : Bool) (es : List Ev) :
    ∃ (failures : Nat) (successes : List Nat), (run names keep es).calls = List.replicate failures Call.failure ++ successes.map Call.success := by
  obtain ⟨k, l, h, -⟩ := sane_run names keep es
  exact ⟨k, l, h⟩

/-- C142: the pairs of ports are those of an input and an output with the same name and manufacturer. -/
theorem C142_pairs (inputs outputs : List Port) (i o : Port) :
    (i, o) ∈ pairs inputs outputs ↔ i ∈ inputs ∧ o ∈ outputs ∧ i.name = o.name ∧ i.manufacturer = o.manufacturer := by
  unfold pairs
  simp only [List.mem_flatMap, List.mem_map, List.mem_filter, Bool.and_eq_true, beq_iff_eq, Prod.mk.injEq]
  constructor
  · rintro ⟨i', hi, o', ⟨ho, hm, hn⟩, rfl, rfl⟩
    exact ⟨hi, ho, hn.symm, hm.symm⟩
  · rintro ⟨hi, ho, hn, hm⟩
    exact ⟨i, hi, o, ⟨ho, hm.symm, hn.symm⟩, rfl, rfl⟩

/-- The only port with this name is found. -/
theorem C142.find_port (ports : List Port) (h : (ports.map Port.name).Nodup) (p : Port) (hp : p ∈ ports) : findPort ports p.name = some p := by
  unfold findPort
  induction ports with
  | nil => simp at hp
  | cons q ports ih =>
    rw [List.map_cons, List.nodup_cons] at h
    rcases List.mem_cons.1 hp with rfl | hp
    · simp
    · have : q.name ≠ p.name := fun e => h.1 (e ▸ List.mem_map_of_mem hp)
      rw [List.find?_cons_of_neg (by simpa using this)]
      exact ih h.2 hp

/-- C142: for different names, an attempt uses the two ports of its pair, and the connection to a client by the name which was found uses the
same two. -/
theorem C142_ports (inputs outputs : List Port) (di : (inputs.map Port.name).Nodup) (dout : (outputs.map Port.name).Nodup) (i o : Port)
    (h : (i, o) ∈ pairs inputs outputs) :
    findPort inputs i.name = some i ∧ findPort outputs i.name = some o ∧ portPair inputs outputs o.name = some (i, o) := by
  have hm := (C142_pairs inputs outputs i o).1 h
  refine ⟨C142.find_port inputs di i hm.1, ?_, ?_⟩
  · rw [hm.2.2.1]
    exact C142.find_port outputs dout o hm.2.1
  · unfold portPair
    cases hf : (pairs inputs outputs).find? fun p => p.2.name == o.name with
    | none =>
      have := List.find?_eq_none.1 hf (i, o) h
      simp at this
    | some p =>
      have h1 := List.find?_some hf
      have h2 := (C142_pairs inputs outputs p.1 p.2).1 (List.mem_of_find?_eq_some hf)
      simp only [beq_iff_eq] at h1
      have e1 := C142.find_port outputs dout p.2 h2.2.1
      have e2 := C142.find_port outputs dout o hm.2.1
      have e3 := C142.find_port inputs di p.1 h2.1
      have e4 := C142.find_port inputs di i hm.1
      rw [h1, e2] at e1
      rw [h2.2.2.1, h1, ← hm.2.2.1, e4] at e3
      simp only [Option.some.injEq] at e1 e3
      rw [e1, e3]

/-- Three ports: one is over, then another one answers, and later answers do not count. -/
example : (["a", "b", "c"] : List String).Nodup ∧ (run ["a", "b", "c"] true [.timeout 0, .answer 0, .answer 2, .answer 1, .timeout 1]).calls = [.success 2] ∧
    FirstAnswer 3 [.timeout 0, .answer 0, .answer 2, .answer 1, .timeout 1] 2 := by
  refine ⟨by decide, by decide, (C142_search_partial ["a", "b", "c"] (by decide) true _).2.1 2 |>.1 (by decide)⟩

/-- Two ports with answers by none. -/
example : (run ["a", "b"] false [.timeout 1, .timeout 0]).calls = [.failure] := by decide

/-- Two devices. -/
example : (⟨"a", "x", 0⟩, ⟨"a", "x", 2⟩) ∈ pairs [⟨"a", "x", 0⟩, ⟨"b", "x", 1⟩] [⟨"a", "x", 2⟩, ⟨"b", "x", 3⟩] := by decide

/-- Against C142 in general: two devices with the same name make four attempts of this name, all with the same ports. Without answers the failure
callback is called for each. -/
theorem C142_same_name_failures_witness :
    ((pairs [⟨"a", "x", 0⟩, ⟨"a", "x", 1⟩] [⟨"a", "x", 2⟩, ⟨"a", "x", 3⟩]).map fun p => p.1.name) = ["a", "a", "a", "a"] ∧
    (run ["a", "a", "a", "a"] true [.timeout 0, .timeout 1, .timeout 2, .timeout 3]).calls = [.failure, .failure, .failure, .failure] := by decide

/-- Against C142 in general: and with answers there are several successes. -/
theorem C142_same_name_successes_witness :
    (run ["a", "a", "a", "a"] true [.answer 0, .answer 1, .answer 2, .answer 3]).calls = [.success 0, .success 1, .success 2, .success 3] := by decide

/-- Against C142 in general: there can even be a failure though the device of this name answers. -/
theorem C142_same_name_both_witness : (run ["a", "a"] true [.timeout 0, .answer 1]).calls = [.failure, .success 1] := by decide

/-- Against C142 in general: with the same name from other manufacturers, an attempt uses the ports of another device. -/
theorem C142_manufacturer_witness :
    (⟨"a", "y", 1⟩, ⟨"a", "y", 2⟩) ∈ pairs [⟨"a", "x", 0⟩, ⟨"a", "y", 1⟩] [⟨"a", "y", 2⟩] ∧
    findPort [⟨"a", "x", 0⟩, ⟨"a", "y", 1⟩] "a" = some ⟨"a", "x", 0⟩ := by decide

end PySwitch.Props
