import Verif.Spec.PortScan

/-!
The search for ports with a device behind.
-/

namespace PySwitch.PortScan
open Spec

/-! ### Start -/

theorem nameOf_inj {names : List String} (hn : names.Nodup) {i j : Nat} (hi : i < names.length) (hj : j < names.length)
    (h : nameOf names i = nameOf names j) : i = j := by
  unfold nameOf at h
  rw [List.getElem?_eq_getElem hi, List.getElem?_eq_getElem hj] at h
  have hp := List.pairwise_iff_getElem.1 hn
  simp only [Option.getD_some] at h
  rcases Nat.lt_trichotomy i j with hlt | rfl | hlt
  · exact absurd h (hp i j hi hj hlt)
  · rfl
  · exact absurd h.symm (hp j i hj hi hlt)

/-- The attempts which are left, and their entries in the map. -/
def entriesOf (names : List String) (p : List Nat) : List (String × Nat) := p.map fun i => (nameOf names i, i)

theorem start_fold (names : List String) (hn : names.Nodup) (k : Nat) (hk : k ≤ names.length) :
    (List.range k).foldl (State.register names) {} = ⟨List.range k, entriesOf names (List.range k), false, [], List.range k⟩ := by
  induction k with
  | zero => rfl
  | succ k ih =>
    rw [List.range_succ, List.foldl_append, ih (by omega)]
    simp only [List.foldl_cons, List.foldl_nil, State.register]
    have : setAttempt (entriesOf names (List.range k)) (nameOf names k) k = entriesOf names (List.range k ++ [k]) := by
      unfold setAttempt
      rw [if_neg]
      · simp [entriesOf]
      · simp only [List.any_eq_true, beq_iff_eq, not_exists, not_and]
        rintro x hx e
        obtain ⟨i, hi, rfl⟩ := List.mem_map.1 hx
        have hi := List.mem_range.1 hi
        have := nameOf_inj hn (by omega) (by omega) e
        omega
    rw [this]

/-! ### Steps -/

theorem entries_filter {names : List String} (hn : names.Nodup) {p : List Nat} (hp : ∀ i ∈ p, i < names.length) {i : Nat} (hi : i < names.length) :
    ((entriesOf names p).filter fun x => x.1 != nameOf names i) = entriesOf names (p.filter (· != i)) := by
  unfold entriesOf
  rw [List.filter_map]
  congr 1
  refine List.filter_congr fun j hj => ?_
  show (nameOf names j != nameOf names i) = (j != i)
  by_cases e : j = i
  · simp [e]
  · have : nameOf names j ≠ nameOf names i := fun h => e (nameOf_inj hn (hp j hj) hi h)
    exact (bne_iff_ne.2 this).trans (bne_iff_ne.2 e).symm

/-- All attempts are rejected after a success. -/
theorem reject_all {names : List String} (hn : names.Nodup) (c : List Call) : ∀ (p : List Nat) (l : List Nat), (∀ i ∈ p, i < names.length) → p.Nodup →
    p.foldl (State.reject names) ⟨p, entriesOf names p, true, c, l⟩ = ⟨[], [], true, c, l.filter fun x => !p.contains x⟩ := by
  intro p
  induction p with
  | nil =>
    intro l _ _
    have : l.filter (fun x => !([] : List Nat).contains x) = l := List.filter_eq_self.2 fun x _ => by simp
    rw [this]
    rfl
  | cons i p ih =>
    intro l hp hd
    rw [List.nodup_cons] at hd
    have hf : (i :: p).filter (· != i) = p := by
      rw [List.filter_cons, if_neg (by simp), List.filter_eq_self]
      intro j hj
      simp only [bne_iff_ne, ne_eq]
      exact fun e => hd.1 (e ▸ hj)
    have h1 : State.reject names ⟨i :: p, entriesOf names (i :: p), true, c, l⟩ i = ⟨p, entriesOf names p, true, c, l.filter (· != i)⟩ := by
      unfold State.reject State.settle
      simp only [Bool.true_eq_false, false_and, and_false, if_false]
      rw [entries_filter hn hp (hp i List.mem_cons_self), hf]
    rw [List.foldl_cons, h1, ih _ (fun j hj => hp j (List.mem_cons_of_mem _ hj)) hd.2, List.filter_filter]
    congr 1
    refine List.filter_congr fun x _ => ?_
    by_cases e : x = i
    · simp [e]
    · simp [e]

/-- While there is no result. -/
def waiting (names : List String) (p : List Nat) : State := ⟨p, entriesOf names p, false, [], p⟩

/-- With a result. -/
def over (success : Bool) (c : Call) (l : List Nat) : State := ⟨[], [], success, [c], l⟩

theorem timeout_step {names : List String} (hn : names.Nodup) (keep : Bool) {p : List Nat} (hp : ∀ i ∈ p, i < names.length) {i : Nat} (hi : i ∈ p) :
    (waiting names p).step names keep (.timeout i) =
      if p.filter (· != i) = [] then over false .failure [] else waiting names (p.filter (· != i)) := by
  have h0 : i ∈ (waiting names p).pending := hi
  simp only [State.step]
  rw [if_pos h0]
  simp only [State.reject, State.settle, waiting, entries_filter hn hp (hp i hi)]
  have hc : p.contains i = true := by simpa using hi
  by_cases he : p.filter (· != i) = []
  · rw [if_pos he, he]
    simp only [hc, entriesOf, List.map_nil]
    rfl
  · rw [if_neg he]
    have : ¬ entriesOf names (p.filter (· != i)) = [] := by simpa [entriesOf] using he
    simp only [this, and_false, if_false]

theorem answer_step {names : List String} (hn : names.Nodup) (keep : Bool) {p : List Nat} (hp : ∀ i ∈ p, i < names.length) (hd : p.Nodup) {i : Nat}
    (hi : i ∈ p) : (waiting names p).step names keep (.answer i) = over true (.success i) (if keep then [i] else []) := by
  have h0 : i ∈ (waiting names p).pending := hi
  simp only [State.step]
  rw [if_pos h0]
  simp only [State.resolve, State.settle, waiting, entries_filter hn hp (hp i hi), List.nil_append]
  have hmap : (entriesOf names (p.filter (· != i))).map Prod.snd = p.filter (· != i) := by
    simp [entriesOf, Function.comp_def]
  rw [hmap, reject_all hn _ _ _ (fun j hj => hp j (List.mem_filter.1 hj).1) (List.Sublist.nodup List.filter_sublist hd)]
  unfold over
  congr 1
  cases keep with
  | false =>
    simp only [Bool.false_eq_true, if_false]
    rw [List.filter_eq_nil_iff]
    intro x hx
    simpa using hx
  | true =>
    simp only [if_true]
    have key : ∀ x, (decide (x ∈ p) && !(p.filter (· != i)).contains x) = (decide (x ∈ p) && x == i) := by
      intro x
      by_cases hx : x ∈ p
      · by_cases e : x = i <;> simp [hx, e]
      · simp [hx]
    have h2 : p.filter (fun x => !(p.filter (· != i)).contains x) = p.filter (· == i) := by
      refine List.filter_congr fun x hx => ?_
      have := key x
      simpa [hx] using this
    rw [h2]
    have h3 : ∀ q : List Nat, q.Nodup → i ∈ q → q.filter (· == i) = [i] := by
      intro q
      induction q with
      | nil => intro _ h; simp at h
      | cons a q ih =>
        intro hq hm
        rw [List.nodup_cons] at hq
        by_cases e : a = i
        · subst e
          rw [List.filter_cons, if_pos (by simp)]
          congr 1
          rw [List.filter_eq_nil_iff]
          intro x hx
          simp only [beq_iff_eq]
          exact fun h => hq.1 (h ▸ hx)
        · rw [List.filter_cons, if_neg (by simpa using e)]
          exact ih hq.2 ((List.mem_cons.1 hm).resolve_left fun h => e h.symm)
    exact h3 p hd hi

/-! ### All histories -/

/-- The attempts whose time is not over. -/
def left (n : Nat) (es : List Ev) : List Nat := (List.range n).filter fun i => decide (Ev.timeout i ∉ es)

theorem mem_left {n : Nat} {es : List Ev} {i : Nat} : i ∈ left n es ↔ Open n es i := by
  simp [left, Open]

/-- The state by the history. -/
inductive Good (names : List String) (keep : Bool) (es : List Ev) (s : State) : Prop
  | waiting (h : NoAnswer names.length es) (hl : left names.length es ≠ []) (hs : s = PortScan.waiting names (left names.length es))
  | success (i : Nat) (h : FirstAnswer names.length es i) (hs : s = over true (.success i) (if keep then [i] else []))
  | failure (h : NoAnswer names.length es) (ha : AllOver names.length es) (hs : s = over false .failure [])

theorem snoc_split {es b a : List Ev} {e x : Ev} (h : es ++ [e] = b ++ x :: a) : (∃ a', es = b ++ x :: a' ∧ a = a' ++ [e]) ∨ (b = es ∧ x = e ∧ a = []) := by
  rcases List.eq_nil_or_concat a with rfl | ⟨a', y, rfl⟩
  · have := List.append_inj' h rfl
    simp only [List.cons.injEq, and_true] at this
    exact .inr ⟨this.1.symm, this.2.symm, rfl⟩
  · have h' : es ++ [e] = (b ++ x :: a') ++ [y] := by simpa using h
    have := List.append_inj' h' rfl
    simp only [List.cons.injEq, and_true] at this
    exact .inl ⟨a', this.1, by rw [this.2]; simp⟩

theorem noAnswer_snoc {n : Nat} {es : List Ev} {e : Ev} (h : NoAnswer n es) (he : ∀ j, e = .answer j → ¬ Open n es j) : NoAnswer n (es ++ [e]) := by
  intro j b a hs
  rcases snoc_split hs with ⟨a', h1, -⟩ | ⟨h1, h2, -⟩
  · exact h j b a' h1
  · rw [h1]
    exact he j h2.symm

theorem good_step {names : List String} (hn : names.Nodup) (keep : Bool) {es : List Ev} {s : State} (h : Good names keep es s) (e : Ev) :
    Good names keep (es ++ [e]) (s.step names keep e) := by
  have hover : ∀ b c l, (over b c l).step names keep e = over b c l := by
    intro b c l
    cases e <;> simp [State.step, over]
  have hlt : ∀ i ∈ left names.length es, i < names.length := fun i hi => (mem_left.1 hi).1
  have hnd : (left names.length es).Nodup := List.Sublist.nodup List.filter_sublist List.nodup_range
  cases h with
  | success i h hs =>
    rw [hs, hover]
    obtain ⟨b, a, h1, h2, h3⟩ := h
    exact .success i ⟨b, a ++ [e], by rw [h1]; simp, h2, h3⟩ rfl
  | failure h ha hs =>
    rw [hs, hover]
    refine .failure (noAnswer_snoc h fun j _ ho => ho.2 (ha j ho.1)) (fun i hi => List.mem_append_left _ (ha i hi)) rfl
  | waiting h hl hs =>
    subst hs
    cases e with
    | answer i =>
      by_cases hi : i ∈ left names.length es
      · rw [answer_step hn keep hlt hnd hi]
        exact .success i ⟨es, [], rfl, mem_left.1 hi, h⟩ rfl
      · have : (waiting names (left names.length es)).step names keep (.answer i) = waiting names (left names.length es) := by
          simp only [State.step]
          exact if_neg hi
        rw [this]
        have hsame : left names.length (es ++ [.answer i]) = left names.length es := by
          unfold left
          refine List.filter_congr fun j _ => ?_
          simp
        exact .waiting (noAnswer_snoc h fun j e => by cases e; exact fun ho => hi (mem_left.2 ho)) (by rw [hsame]; exact hl) (by rw [hsame])
    | timeout i =>
      have hleft : left names.length (es ++ [.timeout i]) = (left names.length es).filter (· != i) := by
        unfold left
        rw [List.filter_filter]
        refine List.filter_congr fun j _ => ?_
        by_cases e : j = i <;> simp [e]
      have hno : NoAnswer names.length (es ++ [.timeout i]) := noAnswer_snoc h fun j e => by simp at e
      by_cases hi : i ∈ left names.length es
      · rw [timeout_step hn keep hlt hi]
        by_cases he : (left names.length es).filter (· != i) = []
        · rw [if_pos he]
          refine .failure hno (fun j hj => ?_) rfl
          rw [← hleft] at he
          have : j ∉ left names.length (es ++ [.timeout i]) := by rw [he]; simp
          rw [mem_left] at this
          unfold Open at this
          exact Classical.byContradiction fun hc => this ⟨hj, hc⟩
        · rw [if_neg he, ← hleft]
          exact .waiting hno (by rw [hleft]; exact he) rfl
      · have : (waiting names (left names.length es)).step names keep (.timeout i) = waiting names (left names.length es) := by
          simp only [State.step]
          exact if_neg hi
        have hsame : left names.length (es ++ [.timeout i]) = left names.length es := by
          rw [hleft, List.filter_eq_self]
          intro j hj
          simp only [bne_iff_ne, ne_eq]
          exact fun e => hi (e ▸ hj)
        rw [this]
        exact .waiting hno (by rw [hsame]; exact hl) (by rw [hsame])

theorem good_run {names : List String} (hn : names.Nodup) (keep : Bool) (es : List Ev) : Good names keep es (run names keep es) := by
  have : ∀ l : List Ev, Good names keep l.reverse (run names keep l.reverse) := by
    intro l
    induction l with
    | nil =>
      show Good names keep [] (start names)
      unfold start
      by_cases h : names = []
      · rw [if_pos h]
        exact .failure (fun j b a e => by simp at e) (fun i hi => by simp [h] at hi) rfl
      · rw [if_neg h, start_fold names hn _ (Nat.le_refl _)]
        have hl : left names.length [] = List.range names.length := by simp [left]
        refine .waiting (fun j b a e => by simp at e) ?_ (by rw [hl]; rfl)
        rw [hl]
        intro e
        exact h (List.length_eq_zero_iff.1 (List.range_eq_nil.1 e))
    | cons e l ih =>
      rw [List.reverse_cons]
      have := good_step hn keep ih e
      unfold run at this ⊢
      rw [List.foldl_append]
      exact this
  simpa using this es.reverse

theorem first_unique {n : Nat} {es : List Ev} {i j : Nat} (hi : FirstAnswer n es i) (hj : FirstAnswer n es j) : i = j := by
  obtain ⟨b, a, h1, h2, h3⟩ := hi
  obtain ⟨b', a', h1', h2', h3'⟩ := hj
  have h := h1.symm.trans h1'
  rcases List.append_eq_append_iff.1 h with ⟨c, hc, hd⟩ | ⟨c, hc, hd⟩
  · cases c with
    | nil => simp at hd; exact hd.1
    | cons x c =>
      simp only [List.cons_append, List.cons.injEq] at hd
      exact absurd h2 (h3' i b c (by rw [hc, hd.1]))
  · cases c with
    | nil => simp at hd; exact hd.1.symm
    | cons x c =>
      simp only [List.cons_append, List.cons.injEq] at hd
      exact absurd h2' (h3 j b' c (by rw [hc, hd.1]))

theorem first_not_no {n : Nat} {es : List Ev} {i : Nat} (hi : FirstAnswer n es i) (h : NoAnswer n es) : False := by
  obtain ⟨b, a, h1, h2, h3⟩ := hi
  exact h i b a h1 h2

/-! ### After a success, whatever the names are -/

theorem reject_success (names : List String) (s : State) (i : Nat) (h : s.success = true) :
    (s.reject names i).success = true ∧ (s.reject names i).calls = s.calls := by
  unfold State.reject State.settle
  simp only [h, Bool.true_eq_false, false_and, and_false, if_false]
  exact ⟨trivial, trivial⟩

theorem rejects_success (names : List String) (l : List Nat) : ∀ s : State, s.success = true →
    (l.foldl (State.reject names) s).success = true ∧ (l.foldl (State.reject names) s).calls = s.calls := by
  induction l with
  | nil => exact fun s h => ⟨h, rfl⟩
  | cons i l ih =>
    intro s h
    have h1 := reject_success names s i h
    have h2 := ih _ h1.1
    exact ⟨h2.1, h2.2.trans h1.2⟩

/-- Failures come before successes, and the flag is set by a success. -/
def Sane (s : State) : Prop :=
  ∃ k l, s.calls = List.replicate k Call.failure ++ l.map Call.success ∧ (s.success = false → l = [])

theorem sane_step (names : List String) (keep : Bool) (s : State) (h : Sane s) (e : Ev) : Sane (s.step names keep e) := by
  obtain ⟨k, l, h1, h2⟩ := h
  cases e with
  | answer i =>
    simp only [State.step]
    split
    · have := rejects_success names
        (((s.settle names i).attempts).map Prod.snd)
        { (s.settle names i) with
          listeners := if keep then (s.settle names i).listeners else (s.settle names i).listeners.filter (· != i), success := true,
          calls := (s.settle names i).calls ++ [Call.success i] } rfl
      refine ⟨k, l ++ [i], ?_, fun hf => ?_⟩
      · refine this.2.trans ?_
        show s.calls ++ [Call.success i] = _
        rw [h1]
        simp
      · exact absurd (this.1.symm.trans hf) (by simp)
    · exact ⟨k, l, h1, h2⟩
  | timeout i =>
    simp only [State.step]
    split
    · unfold State.reject State.settle
      simp only
      split
      · rename_i hc
        have hl := h2 hc.2.1
        refine ⟨k + 1, [], ?_, fun _ => rfl⟩
        simp only [h1, hl, List.map_nil, List.append_nil, List.replicate_succ']
      · exact ⟨k, l, h1, h2⟩
    · exact ⟨k, l, h1, h2⟩

theorem sane_run (names : List String) (keep : Bool) (es : List Ev) : Sane (run names keep es) := by
  have h0 : Sane (start names) := by
    unfold start
    split
    · exact ⟨1, [], rfl, fun _ => rfl⟩
    · have : ∀ (l : List Nat) (s : State), s.calls = [] → (l.foldl (State.register names) s).calls = [] := by
        intro l
        induction l with
        | nil => exact fun s h => h
        | cons i l ih => exact fun s h => ih _ h
      exact ⟨0, [], this _ _ rfl, fun _ => rfl⟩
  unfold run
  generalize start names = s at h0
  induction es generalizing s with
  | nil => exact h0
  | cons e es ih => exact ih _ (sane_step names keep s h0 e)

end PySwitch.PortScan
