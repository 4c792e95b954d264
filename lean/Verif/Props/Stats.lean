import Verif.Spec.Stats
import Verif.Lemmas.Misc
import Verif.Lemmas.Num

namespace PySwitch.Props
open PySwitch.Stats PySwitch.Stats.Spec

namespace C110

theorem run_append (s : State) (a b : List Op) :
    run s (a ++ b) = ((run (run s a).1 b).1, (run s a).2 ++ (run (run s a).1 b).2) := by
  induction a generalizing s with
  | nil => simp [run]
  | cons op a ih => simp [run, ih]

/-- After a start, the state is the total and what the last call has seen. -/
theorem run_started (ops : List Op) (h : Sane ops) (s : State) (hs : 0 ≤ s.totalBytes) :
    0 ≤ (run s ops).1.totalBytes ∧
      (run s ops).1.lastFree = ((ops.getLast?.map seen).getD s.lastFree) := by
  induction ops generalizing s with
  | nil => simp [run, hs]
  | cons op ops ih =>
    have h1 := h op (by simp)
    have h2 : Sane ops := fun o ho => h o (by simp [ho])
    have key : 0 ≤ (step s op).1.totalBytes ∧ (step s op).1.lastFree = seen op := by
      cases op with
      | start free allocated => simp [step, start, seen] at h1 ⊢; omega
      | watch free only =>
        simp only [step, watch, seen]
        rw [if_neg (by omega)]
        split
        · rename_i hc; simp at hc; exact ⟨hs, by simp [hc]⟩
        · exact ⟨hs, rfl⟩
    have := ih h2 _ key.1
    refine ⟨this.1, ?_⟩
    simp only [run, this.2, key.2]
    cases ops with
    | nil => simp
    | cons x xs =>
      rw [List.getLast?_cons_cons]
      have : ∃ y, (x :: xs).getLast? = some y := by simp [List.getLast?_eq_some_getLast]
      obtain ⟨y, hy⟩ := this
      simp [hy]

end C110

/-- **C110** Nothing is printed as long as monitoring has not been started. -/
theorem C110_silent (ops : List Op) (h : ∀ op ∈ ops, isStart op = false) :
    ∀ l ∈ (run {} ops).2, l = none := by
  suffices ∀ s : State, s.totalBytes = -1 → ∀ l ∈ (run s ops).2, l = none from this _ rfl
  induction ops with
  | nil => simp [run]
  | cons op ops ih =>
    intro s hs
    have h1 := h op (by simp)
    cases op with
    | start _ _ => simp [isStart] at h1
    | watch free only =>
      have : step s (.watch free only) = (s, none) := by simp [step, watch, hs]
      simp only [run, this]
      intro l hl
      rcases List.mem_cons.1 hl with rfl | hl
      · rfl
      · exact ih (fun o ho => h o (by simp [ho])) s hs l hl

example : ∀ op ∈ [Op.watch 5 true, .watch 3 false], isStart op = false := by decide

/-- **C110** Once monitoring is started, each call of `watch` tells the memory allocated since the
call before, whatever these calls were, and how much is free. It prints nothing only when it shall
not and nothing has changed. -/
theorem C110_since_last (ops : List Op) (op : Op) (free : Int) (only : Bool) (started : ∃ o ∈ ops, isStart o = true)
    (hs : Sane ops) (hl : ops.getLast? = some op) :
    ∃ p, (step (run {} ops).1 (.watch free only)).2 =
      if only = true ∧ free = seen op then none
      else some (.report ⟨seen op - free, free, p⟩) := by
  obtain ⟨o, ho, hst⟩ := started
  obtain ⟨a, b, rfl⟩ := List.append_of_mem ho
  cases o with
  | watch _ _ => simp [isStart] at hst
  | start f al =>
    have h1 := hs (.start f al) (by simp)
    simp only at h1
    have hb : Sane (.start f al :: b) := fun o ho => hs o (by simp at ho ⊢; grind)
    have hb' : Sane b := fun o ho => hb o (by simp [ho])
    have key := C110.run_started b hb' (step (run {} a).1 (.start f al)).1 (by
      simp [step, start]; omega)
    have hrun : (run {} (a ++ .start f al :: b)).1 =
        (run (step (run {} a).1 (.start f al)).1 b).1 := by
      rw [C110.run_append]; simp [run]
    have hlast : ((b.getLast?.map seen).getD f) = seen op := by
      rw [List.getLast?_append, List.getLast?_cons] at hl
      cases hbl : b.getLast? with
      | none => simp [hbl] at hl; simp [← hl, seen]
      | some x => simp [hbl] at hl; simp [hl]
    rw [hrun]
    generalize (run (step (run {} a).1 (.start f al)).1 b).1 = s at key ⊢
    refine ⟨pyInt ((free : Rat) / (s.totalBytes : Rat) * 100), ?_⟩
    have hk : s.lastFree = seen op := by rw [key.2]; simpa [step, start] using hlast
    simp only [step, watch, if_neg (show ¬ s.totalBytes < 0 by omega), hk]
    by_cases h : only = true ∧ free = seen op
    · simp [h]
    · rw [if_neg h, if_neg (by simpa using h)]

example : ∃ o ∈ [Op.start 100 50, .watch 80 true], isStart o = true := by decide
example : Sane [Op.start 100 50, .watch 80 true] := by simp [Sane]
example : (step (run {} [.start 100 50, .watch 80 true]).1 (.watch 90 true)).2 =
    some (.report ⟨-10, 90, 60⟩) := by decide +kernel

/-- **C110** The amounts add up: from a start on, all reports together account for exactly the
difference between the free memory at the start and as seen by the last call, also with calls in
between which print nothing. -/
theorem C110_account (free allocated : Int) (hf : 0 ≤ free) (ha : 0 < allocated) (s : State)
    (ws : List (Int × Bool)) :
    reported (run s (.start free allocated :: ws.map fun w => .watch w.1 w.2)).2 =
      free - (ws.getLast?.map Prod.fst).getD free := by
  have key : ∀ (ws : List (Int × Bool)) (s : State), 0 ≤ s.totalBytes →
      reported (run s (ws.map fun w => .watch w.1 w.2)).2 =
        s.lastFree - (ws.getLast?.map Prod.fst).getD s.lastFree := by
    intro ws
    induction ws with
    | nil => intro s _; simp [run, reported]
    | cons w ws ih =>
      intro s hs
      simp only [List.map_cons, run, step, watch, if_neg (show ¬ s.totalBytes < 0 by omega)]
      split
      · rename_i hc
        simp only [Bool.and_eq_true, beq_iff_eq] at hc
        rw [reported, ih s hs]
        · cases ws <;> simp [List.getLast?_cons_cons, hc.2]
        · intro r h; cases h
      · rw [reported, ih _ (by simpa using hs)]
        cases ws with
        | nil => simp
        | cons x xs =>
          simp only [List.getLast?_cons_cons]
          have : ∃ y, (x :: xs).getLast? = some y := by
            simp [List.getLast?_eq_some_getLast]
          obtain ⟨y, hy⟩ := this
          simp [hy]; omega
  simp only [run, step, start]
  rw [reported, key ws _ (by simp; omega)]
  intro r h; cases h

namespace C110

theorem watches_total (ws : List (Int × Bool)) : ∀ s : State,
    (run s (ws.map fun w => .watch w.1 w.2)).1.totalBytes = s.totalBytes := by
  induction ws with
  | nil => intro s; rfl
  | cons w ws ih =>
    intro s
    simp only [List.map_cons, run, ih, step, watch]
    split
    · rfl
    · split <;> rfl

end C110

/-- **C110** The percentage is that of the free memory in the whole (what is free and allocated at the
last start of the monitoring), rounded down, so it is between 0 and 100. -/
theorem C110_percent (ops : List Op) (free₀ allocated : Int) (ws : List (Int × Bool))
    (free : Int) (only : Bool) (r : Report)
    (ht : 0 < free₀ + allocated) (hf : 0 ≤ free) (hft : free ≤ free₀ + allocated)
    (h : (step (run {} (ops ++ .start free₀ allocated :: ws.map fun w => .watch w.1 w.2)).1
      (.watch free only)).2 = some (.report r)) :
    0 ≤ r.percent ∧ r.percent ≤ 100 ∧ r.percent * (free₀ + allocated) ≤ free * 100 ∧
      free * 100 < (r.percent + 1) * (free₀ + allocated) := by
  have hs : (run {} (ops ++ .start free₀ allocated :: ws.map fun w => .watch w.1 w.2)).1.totalBytes =
      free₀ + allocated := by
    rw [C110.run_append]
    simp only [run, C110.watches_total, step, start]
    omega
  generalize free₀ + allocated = total at *
  generalize (run {} (ops ++ .start free₀ allocated :: ws.map fun w => .watch w.1 w.2)).1 = s at *
  simp only [step, watch, hs, if_neg (show ¬ total < 0 by omega)] at h
  split at h
  · cases h
  · cases h
    simp only
    have ht' : (0 : Rat) < (total : Rat) := by exact_mod_cast ht
    have hx : (0 : Rat) ≤ (free : Rat) / total * 100 := by
      have := rat_div_nonneg ht' (show (0 : Rat) ≤ free by exact_mod_cast hf)
      grind
    rw [pyInt_of_nonneg hx]
    have e : (free : Rat) / total * 100 * total = free * 100 := by
      have := Rat.div_mul_cancel (a := (free : Rat)) (b := total) (by grind)
      grind
    have h1 := Rat.floor_le ((free : Rat) / total * 100)
    have h2 : (free : Rat) / total * 100 < ((free : Rat) / total * 100).floor + 1 := by
      have := Rat.lt_floor (x := (free : Rat) / total * 100)
      grind
    generalize (free : Rat) / total * 100 = x at *
    generalize hn : x.floor = n at *
    have a1 : ((n * total : Int) : Rat) ≤ ((free * 100 : Int) : Rat) := by
      rw [Rat.intCast_mul, Rat.intCast_mul, show ((100 : Int) : Rat) = 100 by rfl, ← e]
      exact Rat.mul_le_mul_of_nonneg_right h1 (by grind)
    have a2 : ((free * 100 : Int) : Rat) < (((n + 1) * total : Int) : Rat) := by
      rw [Rat.intCast_mul, Rat.intCast_mul, show ((100 : Int) : Rat) = 100 by rfl, ← e]
      exact Rat.mul_lt_mul_of_pos_right (by rw [Rat.intCast_add]; exact h2) ht'
    have b1 : n * total ≤ free * 100 := by exact_mod_cast a1
    have b2 : free * 100 < (n + 1) * total := by exact_mod_cast a2
    refine ⟨?_, ?_, b1, b2⟩
    · apply Classical.byContradiction
      intro hneg
      have : (n + 1) * total ≤ 0 := Int.mul_nonpos_of_nonpos_of_nonneg (by omega) (by omega)
      omega
    · apply Classical.byContradiction
      intro hgt
      have : 101 * total ≤ n * total := Int.mul_le_mul_of_nonneg_right (by omega) (by omega)
      omega

example : (step (run {} ([.watch 3 true] ++ .start 100 50 :: [(80, true)].map fun w => .watch w.1 w.2)).1
    (.watch 90 true)).2 = some (.report ⟨-10, 90, 60⟩) := by decide +kernel

namespace C110

theorem inv_one : (1 : Rat)⁻¹ = 1 := by decide +kernel

theorem pow_cast (k : Nat) : (((1024 : Int) ^ k : Int) : Rat) = 1024 ^ k := by
  induction k with
  | zero => rfl
  | succ k ih => rw [Int.pow_succ, Rat.intCast_mul, ih, Rat.pow_succ]; rfl

theorem pow_pos (k : Nat) : (0 : Rat) < 1024 ^ k := by
  rw [← pow_cast]
  have : (0 : Int) < 1024 ^ k := Int.pow_pos (by decide)
  rwa [← Rat.intCast_lt_intCast] at this

theorem tenths_eq (num : Rat) : tenths num = (decimal (pyRound (num * 10))).toList := by
  simp [tenths, decimal]
  split <;> simp

/-- The loop stops at the first unit which is large enough. -/
theorem loop_spec : ∀ (us : List String) (num : Rat),
    ∃ (u : Nat) (t : Int), u ≤ us.length ∧
      sizeLoop ['B'] us num = (decimal t).toList ++
        ((us.map fun x => " " ++ x ++ "B") ++ ["YiB"])[u]!.toList ∧
      t = pyRound (num / 1024 ^ u * 10) ∧
      (u < us.length → -1024 ^ (u + 1) < num ∧ num < 1024 ^ (u + 1)) ∧
      (0 < u → num ≤ -1024 ^ u ∨ 1024 ^ u ≤ num)
  | [], num => ⟨0, pyRound (num * 10), by simp, by simp [sizeLoop, tenths_eq], by simp [Rat.div_def, inv_one], by simp, by simp⟩
  | x :: us, num => by
    by_cases h : -1024 < num ∧ num < 1024
    · refine ⟨0, pyRound (num * 10), by simp, by simp [sizeLoop, h, tenths_eq], by simp [Rat.div_def, inv_one], ?_, by simp⟩
      intro _; simpa using h
    · obtain ⟨u, t, h1, h2, h3, h4, h5⟩ := loop_spec us (num / 1024)
      refine ⟨u + 1, t, by simp; omega, ?_, ?_, ?_, ?_⟩
      · rw [sizeLoop, if_neg h, h2]; simp
      · rw [h3]
        congr 2
        rw [Rat.pow_succ, Rat.div_def, Rat.div_def, Rat.div_def, Rat.inv_mul_rev, Rat.mul_assoc]
      · intro hu
        have := h4 (by simpa using hu)
        have e := Rat.div_mul_cancel (a := num) (b := 1024) (by decide +kernel)
        rw [Rat.pow_succ]
        generalize num / 1024 = q at *
        generalize (1024 : Rat) ^ (u + 1) = p at *
        constructor <;> grind
      · intro _
        have e := Rat.div_mul_cancel (a := num) (b := 1024) (by decide +kernel)
        by_cases hu : 0 < u
        · have := h5 hu
          rw [Rat.pow_succ]
          generalize num / 1024 = q at *
          generalize (1024 : Rat) ^ u = p at *
          grind
        · have : u = 0 := by omega
          subst this
          simp
          grind

end C110

/-- **C110** A size is shown with one digit behind the point in the largest unit which makes it at
least 1 (the smallest, if there is none), rounded to the nearest tenth. It is padded with blanks up
to the length asked for. -/
theorem C110_size (n : Int) (len : Nat) :
    ∃ (u : Nat) (t : Int) (blanks : Nat), u < units.length ∧
      formatSize n len = (decimal t).toList ++ units[u]!.toList ++ List.replicate blanks ' ' ∧
      len ≤ (formatSize n len).length ∧
      (blanks ≠ 0 → (formatSize n len).length = len) ∧
      2 * 10 * (n : Rat) ≤ (2 * t + 1) * 1024 ^ u ∧ (2 * t - 1) * 1024 ^ u ≤ 2 * 10 * (n : Rat) ∧
      (u + 1 < units.length → -1024 ^ (u + 1) < n ∧ n < 1024 ^ (u + 1)) ∧
      (0 < u → n ≤ -1024 ^ u ∨ 1024 ^ u ≤ n) := by
  obtain ⟨u, t, h1, h2, h3, h4, h5⟩ :=
    C110.loop_spec ["", "Ki", "Mi", "Gi", "Ti", "Pi", "Ei", "Zi"] (n : Rat)
  have hu : u < units.length := by simp [units] at h1 ⊢; omega
  generalize hL : sizeLoop ['B'] ["", "Ki", "Mi", "Gi", "Ti", "Pi", "Ei", "Zi"] (n : Rat) = L at h2
  have hf : formatSize n len = L ++ List.replicate (len - L.length) ' ' := by
    simp only [formatSize, hL, fillUpTo]
    split
    · have : len = 0 := by omega
      simp [this]
    · rw [fillLoop_spec]; simp
  refine ⟨u, t, len - L.length, hu, ?_, ?_, ?_, ?_, ?_, ?_, ?_⟩
  · rw [hf, h2]
    have : ((["", "Ki", "Mi", "Gi", "Ti", "Pi", "Ei", "Zi"].map fun x => " " ++ x ++ "B") ++ ["YiB"]) = units := by
      decide +kernel
    rw [this]
  · rw [hf]; simp; omega
  · rw [hf]; simp; omega
  · have hn := (pyRound_near ((n : Rat) / 1024 ^ u * 10)).2
    rw [← h3] at hn
    have hp := C110.pow_pos u
    have e := Rat.div_mul_cancel (a := (n : Rat)) (b := 1024 ^ u) (by grind)
    have := Rat.mul_le_mul_of_nonneg_right hn (show (0 : Rat) ≤ 1024 ^ u by grind)
    generalize (n : Rat) / 1024 ^ u = q at *
    generalize (1024 : Rat) ^ u = p at *
    grind
  · have hn := (pyRound_near ((n : Rat) / 1024 ^ u * 10)).1
    rw [← h3] at hn
    have hp := C110.pow_pos u
    have e := Rat.div_mul_cancel (a := (n : Rat)) (b := 1024 ^ u) (by grind)
    have := Rat.mul_le_mul_of_nonneg_right hn (show (0 : Rat) ≤ 1024 ^ u by grind)
    generalize (n : Rat) / 1024 ^ u = q at *
    generalize (1024 : Rat) ^ u = p at *
    grind
  · intro h
    have := h4 (by simp [units] at h ⊢; omega)
    rw [← C110.pow_cast, ← Rat.intCast_neg, Rat.intCast_lt_intCast, Rat.intCast_lt_intCast] at this
    exact this
  · intro h
    have := h5 h
    rw [← C110.pow_cast, ← Rat.intCast_neg, Rat.intCast_le_intCast, Rat.intCast_le_intCast] at this
    exact this

/-- 1023.96 KiB are shown as 1024 KiB, as the unit is chosen before rounding. -/
example : formatSize 1048535 = "1024.0 KiB".toList := by decide +kernel
example : formatSize (-1536) 12 = "-1.5 KiB    ".toList := by decide +kernel

end PySwitch.Props
