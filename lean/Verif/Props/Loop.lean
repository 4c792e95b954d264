import Verif.Lemmas.Loop
/-
Properties C10, C11: the processing loop.
-/
namespace PySwitch.Props
open PySwitch PySwitch.Loop
open PySwitch.Wire (Msg)

/-- C10: a receive cycle consists of `k` rounds; each round scans all inputs in order, then reads one message
and hands it to the client. `k` is at most `maxConsecutiveMidiMessages + 1` (and at least one), the cycle ends
early exactly at the first empty read. -/
theorem C10_cycle (c : Config) (reads : Nat → Option Msg) (pos : Nat) :
    ∃ k : Nat, 1 ≤ k ∧ (k : Int) ≤ max 1 (c.maxMsgs + 1) ∧
      (receiveMessages c reads pos).1
        = (List.range k).flatMap (fun i =>
            c.inputs.map .process ++ [.read (reads (pos + i)), .client (reads (pos + i))]) ∧
      (receiveMessages c reads pos).2 = pos + k ∧
      (∀ i, i + 1 < k → reads (pos + i) ≠ none) ∧
      (reads (pos + (k - 1)) = none ∨ (k : Int) = max 1 (c.maxMsgs + 1)) := by
  obtain ⟨k, h1, h2, h3, h4, h5⟩ := receiveLoop_spec c reads pos 0
  refine ⟨k, h1, by omega, ?_, ?_, h4, ?_⟩
  · rw [receiveMessages, h3]; rfl
  · rw [receiveMessages, h3]
  · rcases h5 with h5 | h5
    · exact .inl h5
    · right; omega

/-- C10: whatever the message backlog is, one tick handles at most
`(number of updateables + 1) * (maxConsecutiveMidiMessages + 1)` messages. -/
theorem C10_tick_bound (c : Config) (reads : Nat → Option Msg) (p : PeriodCounter) (pos : Nat) (now : Int) :
    (numMessages (tick c reads p pos now).1 : Int)
      ≤ (c.updateables.length + 1) * max 1 (c.maxMsgs + 1) := by
  simp only [tick]
  rw [numMessages_append]
  have h1 := numMessages_receive c reads
    (if (p.exceeded now).1 = true then updateLoop c reads c.updateables pos else ([], pos)).2
  have h2 := numMessages_updateLoop c reads c.updateables pos
  rw [Int.add_mul]
  push_cast
  split at h1 <;> rename_i h
  · rw [if_pos h]
    omega
  · rw [if_neg h]
    have h3 : numMessages ([] : List Eff) = 0 := rfl
    simp only [h3]
    have h4 : (0 : Int) ≤ c.updateables.length * max 1 (c.maxMsgs + 1) :=
      Int.mul_nonneg (by omega) (by omega)
    simp at h1 ⊢
    omega

/-- C10: in every run, each read of a message comes immediately after a scan of all inputs (so between two
messages every input has been polled). -/
theorem C10_inputs_scanned (c : Config) (reads : Nat → Option Msg) (p : PeriodCounter) (pos : Nat)
    (ts : List Int) (before after : List Eff) (x : Option Msg)
    (h : (ticks c reads p pos ts).1 = before ++ .read x :: after) :
    ∃ b, before = b ++ c.inputs.map .process := by
  have : Scanned c.inputs (ticks c reads p pos ts).1 := by
    clear h
    induction ts generalizing p pos with
    | nil => intro a x c h; simp [ticks] at h
    | cons t ts ih =>
      simp only [ticks]
      refine scanned_append ?_ (ih _ _)
      simp only [tick]
      apply scanned_append _ (scanned_receive c reads _)
      split
      · exact scanned_updateLoop c reads _ pos
      · intro a x c h; simp at h
  exact this before x after h

/-- C10: a tick updates every updateable exactly once, in order, if more than the update interval has passed
since the last update, and none otherwise. -/
theorem C10_tick_updates (c : Config) (reads : Nat → Option Msg) (p : PeriodCounter) (pos : Nat) (now : Int) :
    updatesOf (tick c reads p pos now).1
      = if now - p.lastReset > p.interval then c.updateables else [] := by
  simp only [tick]
  rw [updatesOf_append, updatesOf_receive, List.append_nil]
  unfold PeriodCounter.exceeded
  by_cases h : p.lastReset + p.interval < now
  · have h' : now - p.lastReset > p.interval := by omega
    simp only [if_pos h, if_true, if_pos h']
    exact updatesOf_updateLoop c reads _ pos
  · have h' : ¬ now - p.lastReset > p.interval := by omega
    simp only [if_neg h, if_neg h']
    rfl

/-- C10: the messages handed to the client in a run are exactly the messages read, in order. -/
theorem C10_client_gets_all (c : Config) (reads : Nat → Option Msg) (p : PeriodCounter) (pos : Nat)
    (ts : List Int) :
    pos ≤ (ticks c reads p pos ts).2 ∧
    clientOf (ticks c reads p pos ts).1
      = (List.range ((ticks c reads p pos ts).2 - pos)).map (fun i => reads (pos + i)) :=
  faithful_ticks c reads p pos ts

-- an endless burst: with a limit of 2 one tick handles 3 messages per cycle and still updates and scans
example : (tick { maxMsgs := 2, inputs := [0, 1], updateables := [7] } (fun _ => some (.pc 1 none))
    ⟨200, 0⟩ 0 201).2.2 = 6 := by decide +kernel
example : numMessages (tick { maxMsgs := 2, inputs := [0, 1], updateables := [7] }
    (fun _ => some (.pc 1 none)) ⟨200, 0⟩ 0 201).1 = 6 := by decide +kernel

/-- C11: with `clearBuffers`, `init()` reads and discards the whole backlog (the messages before the first
empty read), hands none of it to the client, and the loop then only sees what comes after it. -/
theorem C11_drained (c : Config) (hc : c.clearBuffer = true) (reads : Nat → Option Msg) (k backlog : Nat)
    (hk : k ≤ backlog) (hs : ∀ i < k, reads i ≠ none) (hn : reads k = none)
    (p : PeriodCounter) (ts : List Int) :
    (init c reads backlog).1 = (List.range (k + 1)).map (fun i => .read (reads i)) ∧
    (init c reads backlog).2 = k + 1 ∧
    clientOf ((init c reads backlog).1 ++ (ticks c reads p (init c reads backlog).2 ts).1)
      = (List.range ((ticks c reads p (k + 1) ts).2 - (k + 1))).map (fun i => reads (k + 1 + i)) := by
  have h := drain_spec reads backlog k 0 hk (by simpa using hs) (by simpa using hn)
  simp only [Nat.zero_add] at h
  simp only [init, hc, if_true, h]
  refine ⟨trivial, trivial, ?_⟩
  rw [clientOf_append]
  have h0 : clientOf ((List.range (k + 1)).map (fun i => Eff.read (reads i))) = [] := by
    simp only [clientOf, List.filterMap_eq_nil_iff]
    intro e he
    obtain ⟨j, -, rfl⟩ := List.mem_map.1 he; rfl
  rw [h0, List.nil_append]
  exact (faithful_ticks c reads p (k + 1) ts).2

/-- C11: without `clearBuffers` nothing is read or discarded: the client gets the messages from the very first
one on. -/
theorem C11_not_drained (c : Config) (hc : c.clearBuffer = false) (reads : Nat → Option Msg) (backlog : Nat)
    (p : PeriodCounter) (ts : List Int) :
    (init c reads backlog).1 = [] ∧
    clientOf ((init c reads backlog).1 ++ (ticks c reads p (init c reads backlog).2 ts).1)
      = (List.range (ticks c reads p 0 ts).2).map reads := by
  have h : init c reads backlog = ([], 0) := by simp [init, hc]
  refine ⟨by rw [h], ?_⟩
  rw [h]
  have := (faithful_ticks c reads p 0 ts).2
  simpa using this

-- three messages pending before the first empty read
example : ∀ i < 3, (fun i : Nat => if i < 3 then some (Msg.pc i none) else none) i ≠ none := by decide
example : (init { inputs := [], updateables := [] } (fun i => if i < 3 then some (Msg.pc i none) else none) 5).2
    = 4 := by decide

end PySwitch.Props
