import Verif.Spec.Loop
namespace PySwitch.Loop
open PySwitch.Wire (Msg)

/-- One iteration of the receive loop. -/
def iteration (inputs : List Nat) (a : Option Msg) : List Eff :=
  inputs.map .process ++ [.read a, .client a]

theorem receiveLoop_spec (c : Config) (reads : Nat → Option Msg) (pos : Nat) (cnt : Int) :
    ∃ k : Nat, 1 ≤ k ∧ ((k : Int) ≤ 1 ∨ (k : Int) ≤ c.maxMsgs + 1 - cnt) ∧
      receiveLoop c reads pos cnt
        = ((List.range k).flatMap (fun i => iteration c.inputs (reads (pos + i))), pos + k) ∧
      (∀ i, i + 1 < k → reads (pos + i) ≠ none) ∧
      (reads (pos + (k - 1)) = none ∨ cnt + k > c.maxMsgs) := by
  generalize hn : (c.maxMsgs - cnt).toNat = n
  induction n using Nat.strongRecOn generalizing pos cnt with
  | _ n ih =>
    unfold receiveLoop
    by_cases h : reads pos = none ∨ cnt + 1 > c.maxMsgs
    · refine ⟨1, by omega, by omega, ?_, ?_, ?_⟩
      · simp only [if_pos h]
        simp [iteration, List.range_succ]
      · intro i hi; omega
      · simpa using h
    · obtain ⟨k, h1, h2, h3, h4, h5⟩ := ih ((c.maxMsgs - (cnt + 1)).toNat) (by omega) (pos + 1) (cnt + 1) rfl
      refine ⟨k + 1, by omega, by omega, ?_, ?_, ?_⟩
      · simp only [if_neg h]
        rw [h3, List.range_succ_eq_map, List.flatMap_cons, List.flatMap_map]
        simp only [iteration, Nat.add_zero, Nat.succ_eq_add_one]
        refine Prod.ext ?_ (by simp; omega)
        simp only
        congr 1
        congr 1
        funext i
        rw [show pos + 1 + i = pos + (i + 1) by omega]
      · intro i hi
        cases i with
        | zero => exact fun hh => h (.inl hh)
        | succ i =>
          have := h4 i (by omega)
          rwa [show pos + 1 + i = pos + (i + 1) by omega] at this
      · rcases h5 with h5 | h5
        · left
          rw [show pos + (k + 1 - 1) = pos + 1 + (k - 1) by omega]
          exact h5
        · right; push_cast; omega

theorem numMessages_append (a b : List Eff) : numMessages (a ++ b) = numMessages a + numMessages b := by
  simp [numMessages]

theorem numMessages_process (l : List Nat) : numMessages (l.map .process) = 0 := by
  induction l with
  | nil => rfl
  | cons x l ih => simp [numMessages]

theorem numMessages_iteration (inputs : List Nat) (a : Option Msg) :
    numMessages (iteration inputs a) ≤ 1 := by
  unfold iteration
  rw [numMessages_append, numMessages_process]
  cases a <;> simp [numMessages]

theorem numMessages_iterations (inputs : List Nat) (f : Nat → Option Msg) (k : Nat) :
    numMessages ((List.range k).flatMap (fun i => iteration inputs (f i))) ≤ k := by
  induction k with
  | zero => simp [numMessages]
  | succ k ih =>
    rw [List.range_succ, List.flatMap_append, numMessages_append]
    have := numMessages_iteration inputs (f k)
    simp only [List.flatMap_cons, List.flatMap_nil, List.append_nil]
    omega

/-- Each read comes immediately after a scan of all inputs. -/
def Scanned (inputs : List Nat) (tr : List Eff) : Prop :=
  ∀ a x c, tr = a ++ .read x :: c → ∃ a', a = a' ++ inputs.map .process

theorem scanned_append {inputs : List Nat} {s t : List Eff} (hs : Scanned inputs s)
    (ht : Scanned inputs t) : Scanned inputs (s ++ t) := by
  intro a x c h
  rw [List.append_eq_append_iff] at h
  rcases h with ⟨a', h1, h2⟩ | ⟨c', h1, h2⟩
  · obtain ⟨b, hb⟩ := ht a' x c h2
    exact ⟨s ++ b, by rw [h1, hb]; simp⟩
  · cases c' with
    | nil =>
      simp at h1 h2
      obtain ⟨b, hb⟩ := ht [] x c h2.symm
      have hb' := hb.symm
      simp at hb'
      exact ⟨a, by simp [hb'.2]⟩
    | cons y c' =>
      simp at h2
      obtain ⟨rfl, rfl⟩ := h2
      exact hs a x c' h1

theorem scanned_iteration (inputs : List Nat) (m : Option Msg) : Scanned inputs (iteration inputs m) := by
  intro a x c h
  unfold iteration at h
  rw [List.append_eq_append_iff] at h
  rcases h with ⟨a', h1, h2⟩ | ⟨c', h1, h2⟩
  · cases a' with
    | nil => exact ⟨[], by simpa using h1⟩
    | cons y a' =>
      simp at h2
      obtain ⟨rfl, h2⟩ := h2
      cases a' with
      | nil => simp at h2
      | cons z a' => simp at h2
  · cases c' with
    | nil =>
      simp at h1
      exact ⟨[], by simp [h1]⟩
    | cons y c' =>
      simp at h2
      obtain ⟨rfl, h2⟩ := h2
      have : Eff.read x ∈ inputs.map Eff.process := by rw [h1]; simp
      simp at this

theorem scanned_iterations (inputs : List Nat) (f : Nat → Option Msg) (k : Nat) :
    Scanned inputs ((List.range k).flatMap (fun i => iteration inputs (f i))) := by
  induction k with
  | zero => intro a x c h; simp at h
  | succ k ih =>
    rw [List.range_succ, List.flatMap_append]
    apply scanned_append ih
    simpa using scanned_iteration inputs (f k)

theorem scanned_receive (c : Config) (reads : Nat → Option Msg) (pos : Nat) :
    Scanned c.inputs (receiveMessages c reads pos).1 := by
  obtain ⟨k, -, -, h, -, -⟩ := receiveLoop_spec c reads pos 0
  rw [receiveMessages, h]
  exact scanned_iterations _ _ _

theorem scanned_update (inputs : List Nat) (u : Nat) : Scanned inputs [.update u] := by
  intro a x c h
  cases a with
  | nil => simp at h
  | cons y a => simp at h

theorem scanned_updateLoop (c : Config) (reads : Nat → Option Msg) (us : List Nat) (pos : Nat) :
    Scanned c.inputs (updateLoop c reads us pos).1 := by
  induction us generalizing pos with
  | nil => intro a x c h; simp [updateLoop] at h
  | cons u us ih =>
    simp only [updateLoop]
    exact scanned_append (scanned_append (scanned_receive c reads pos) (scanned_update _ u)) (ih _)

theorem numMessages_receive (c : Config) (reads : Nat → Option Msg) (pos : Nat) :
    (numMessages (receiveMessages c reads pos).1 : Int) ≤ max 1 (c.maxMsgs + 1) := by
  obtain ⟨k, -, h2, h, -, -⟩ := receiveLoop_spec c reads pos 0
  rw [receiveMessages, h]
  have := numMessages_iterations c.inputs (fun i => reads (pos + i)) k
  simp only
  omega

theorem numMessages_updateLoop (c : Config) (reads : Nat → Option Msg) (us : List Nat) (pos : Nat) :
    (numMessages (updateLoop c reads us pos).1 : Int) ≤ us.length * max 1 (c.maxMsgs + 1) := by
  induction us generalizing pos with
  | nil => simp [updateLoop, numMessages]
  | cons u us ih =>
    simp only [updateLoop]
    rw [numMessages_append, numMessages_append]
    have h1 := numMessages_receive c reads pos
    have h2 := ih (receiveMessages c reads pos).2
    have h3 : numMessages [Eff.update u] = 0 := rfl
    rw [h3]
    push_cast
    simp only [List.length_cons]
    push_cast
    rw [Int.add_mul]
    omega

theorem updatesOf_append (a b : List Eff) : updatesOf (a ++ b) = updatesOf a ++ updatesOf b := by
  simp [updatesOf]

theorem updatesOf_receive (c : Config) (reads : Nat → Option Msg) (pos : Nat) :
    updatesOf (receiveMessages c reads pos).1 = [] := by
  obtain ⟨k, -, h2, h, -, -⟩ := receiveLoop_spec c reads pos 0
  rw [receiveMessages, h]
  simp only [updatesOf, List.filterMap_eq_nil_iff]
  intro e he
  simp only [List.mem_flatMap, iteration, List.mem_append, List.mem_map] at he
  obtain ⟨i, -, h | h⟩ := he
  · obtain ⟨j, -, rfl⟩ := h; rfl
  · simp at h
    rcases h with rfl | rfl <;> rfl

theorem updatesOf_updateLoop (c : Config) (reads : Nat → Option Msg) (us : List Nat) (pos : Nat) :
    updatesOf (updateLoop c reads us pos).1 = us := by
  induction us generalizing pos with
  | nil => rfl
  | cons u us ih =>
    simp only [updateLoop]
    rw [updatesOf_append, updatesOf_append, ih, updatesOf_receive]
    rfl

theorem clientOf_append (a b : List Eff) : clientOf (a ++ b) = clientOf a ++ clientOf b := by
  simp [clientOf]

theorem of_iterations (inputs : List Nat) (f : Nat → Option Msg) (k : Nat) :
    clientOf ((List.range k).flatMap (fun i => iteration inputs (f i))) = (List.range k).map f := by
  induction k with
  | zero => rfl
  | succ k ih =>
    rw [List.range_succ, List.flatMap_append, clientOf_append, ih, List.map_append]
    congr 1
    simp only [List.flatMap_cons, List.flatMap_nil, List.append_nil, iteration, clientOf_append]
    have : clientOf (inputs.map Eff.process) = [] := by
      simp only [clientOf, List.filterMap_eq_nil_iff]
      intro e he
      obtain ⟨j, -, rfl⟩ := List.mem_map.1 he; rfl
    rw [this]
    rfl

/-- What the client gets is exactly what is read, in order, from the position on. -/
def Faithful (reads : Nat → Option Msg) (pos : Nat) (r : List Eff × Nat) : Prop :=
  pos ≤ r.2 ∧ clientOf r.1 = (List.range (r.2 - pos)).map (fun i => reads (pos + i))

theorem faithful_append {reads : Nat → Option Msg} {pos : Nat} {a b : List Eff} {p q : Nat}
    (h1 : Faithful reads pos (a, p)) (h2 : Faithful reads p (b, q)) : Faithful reads pos (a ++ b, q) := by
  obtain ⟨l1, e1⟩ := h1
  obtain ⟨l2, e2⟩ := h2
  simp only at l1 e1 l2 e2
  refine ⟨by simp only; omega, ?_⟩
  simp only
  rw [clientOf_append, e1, e2]
  have : q - pos = (p - pos) + (q - p) := by omega
  rw [this, List.range_add, List.map_append]
  congr 1
  rw [List.map_map]
  apply List.map_congr_left
  intro i _
  simp only [Function.comp]
  congr 1
  omega

theorem faithful_receive (c : Config) (reads : Nat → Option Msg) (pos : Nat) :
    Faithful reads pos (receiveMessages c reads pos) := by
  obtain ⟨k, -, h2, h, -, -⟩ := receiveLoop_spec c reads pos 0
  rw [receiveMessages, h]
  refine ⟨by simp only; omega, ?_⟩
  simp only
  rw [of_iterations, show pos + k - pos = k by omega]

theorem faithful_updateLoop (c : Config) (reads : Nat → Option Msg) (us : List Nat) (pos : Nat) :
    Faithful reads pos (updateLoop c reads us pos) := by
  induction us generalizing pos with
  | nil => exact ⟨Nat.le_refl _, by simp [updateLoop, clientOf]⟩
  | cons u us ih =>
    simp only [updateLoop]
    refine faithful_append (p := (receiveMessages c reads pos).2)
      (faithful_append (p := (receiveMessages c reads pos).2) (faithful_receive c reads pos) ?_) (ih _)
    exact ⟨Nat.le_refl _, by simp [clientOf]⟩

theorem faithful_tick (c : Config) (reads : Nat → Option Msg) (p : PeriodCounter) (pos : Nat) (t : Int) :
    Faithful reads pos ((tick c reads p pos t).1, (tick c reads p pos t).2.2) := by
  simp only [tick]
  split
  · exact faithful_append (faithful_updateLoop c reads _ pos) (faithful_receive c reads _)
  · exact faithful_append (p := pos) ⟨Nat.le_refl _, by simp [clientOf]⟩ (faithful_receive c reads _)

theorem faithful_ticks (c : Config) (reads : Nat → Option Msg) (p : PeriodCounter) (pos : Nat)
    (ts : List Int) : Faithful reads pos (ticks c reads p pos ts) := by
  induction ts generalizing p pos with
  | nil => exact ⟨Nat.le_refl _, by simp [ticks, clientOf]⟩
  | cons t ts ih =>
    simp only [ticks]
    exact faithful_append (faithful_tick c reads p pos t) (ih _ _)

theorem drain_spec (reads : Nat → Option Msg) (fuel k pos : Nat) (hk : k ≤ fuel)
    (hs : ∀ i < k, reads (pos + i) ≠ none) (hn : reads (pos + k) = none) :
    drain reads fuel pos = ((List.range (k + 1)).map (fun i => Eff.read (reads (pos + i))), pos + k + 1) := by
  induction fuel generalizing k pos with
  | zero =>
    have : k = 0 := by omega
    subst this
    simp at hn
    simp [drain, List.range_succ]
  | succ fuel ih =>
    cases k with
    | zero =>
      simp at hn
      simp [drain, hn, List.range_succ]
    | succ k =>
      have h0 := hs 0 (by omega)
      simp only [Nat.add_zero] at h0
      obtain ⟨m, hm⟩ := Option.ne_none_iff_exists'.1 h0
      simp only [drain, hm]
      rw [ih k (pos + 1) (by omega) (fun i hi => by
        have := hs (i + 1) (by omega)
        rwa [show pos + 1 + i = pos + (i + 1) by omega]) (by
        rwa [show pos + 1 + k = pos + (k + 1) by omega])]
      refine Prod.ext ?_ (by simp only; omega)
      simp only
      rw [List.range_succ_eq_map (n := k + 1), List.map_cons, List.map_map]
      simp only [Nat.add_zero, hm]
      congr 1
      apply List.map_congr_left
      intro i _
      simp only [Function.comp]
      rw [show pos + 1 + i = pos + (i + 1) by omega]

end PySwitch.Loop
