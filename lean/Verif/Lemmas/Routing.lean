import Verif.Spec.Routing
namespace PySwitch.Routing
open Spec
open PySwitch.Wire (Msg)

theorem receive_fst (q : Reads) (d : Nat) : (q.receive d).1 = nextRead q d := by
  unfold Reads.receive nextRead
  split <;> rename_i h <;> simp [h]

theorem receive_snd (q : Reads) (d x : Nat) :
    (q.receive d).2 x = if x = d then (q x).tail else q x := by
  unfold Reads.receive
  split <;> rename_i h
  · split
    · rename_i hx; subst hx; simp [h]
    · rfl
  · simp only
    split
    · rename_i hx; subst hx; simp [h]
    · rfl

/-- A read moves the message from the future reads to the past ones. -/
theorem receive_conserve (q : Reads) (d : Nat) :
    (q.receive d).1.toList ++ ((q.receive d).2 d).filterMap id = (q d).filterMap id := by
  unfold Reads.receive
  split <;> rename_i h
  · simp [h]
  · rename_i a rest
    simp only [if_true, h]
    cases a <;> simp

/-- The sources of a list of routings. -/
def sourcesOf (rs : List Routing) : List Nat := rs.filterMap (·.source)

theorem mem_sources_none {r : Routing} (rs : List Routing) (h : r.source = none) (s : Nat) :
    s ∈ sourcesOf (r :: rs) ↔ s ∈ sourcesOf rs := by
  unfold sourcesOf
  rw [List.filterMap_cons, h]

theorem mem_sources_some {r : Routing} (rs : List Routing) {s' : Nat} (h : r.source = some s') (s : Nat) :
    s ∈ sourcesOf (r :: rs) ↔ s = s' ∨ s ∈ sourcesOf rs := by
  unfold sourcesOf
  rw [List.filterMap_cons, h]
  simp

theorem filter_of_any_false (got : List (Nat × Option Msg)) (s : Nat)
    (h : ¬ got.any (fun g => g.1 == s) = true) : got.filter (fun g => g.1 == s) = [] := by
  rw [List.filter_eq_nil_iff]
  intro a ha hs
  exact h (List.any_eq_true.2 ⟨a, ha, hs⟩)

theorem any_snoc (got : List (Nat × Option Msg)) (s s' : Nat) (a : Option Msg) :
    (got ++ [(s', a)]).any (fun g => g.1 == s) = (got.any (fun g => g.1 == s) || s' == s) := by
  simp only [List.any_append, List.any_cons, List.any_nil, Bool.or_false]

theorem collect_got (rs : List Routing) (got : List (Nat × Option Msg)) (q : Reads) (s : Nat) :
    (collect rs got q).1.filter (fun g => g.1 == s)
      = if got.any (fun g => g.1 == s) then got.filter (fun g => g.1 == s)
        else if s ∈ sourcesOf rs then [(s, nextRead q s)] else [] := by
  induction rs generalizing got q with
  | nil =>
    simp only [collect, sourcesOf, List.filterMap_nil, List.not_mem_nil, if_false]
    split
    · rfl
    · rename_i h
      exact filter_of_any_false _ _ h
  | cons r rs ih =>
    simp only [collect]
    cases hs : r.source with
    | none =>
      simp only
      rw [ih]
      simp only [mem_sources_none rs hs]
    | some s' =>
      simp only [mem_sources_some rs hs]
      split
      · rename_i hany
        rw [ih]
        split
        · rfl
        · rename_i hn
          have hne : s ≠ s' := by
            rintro rfl
            exact hn hany
          simp only [hne, false_or]
      · rename_i hany
        simp only
        rw [ih, any_snoc]
        by_cases hss : s' = s
        · subst hss
          have hf := filter_of_any_false _ _ hany
          rw [List.filter_append, hf, if_neg hany]
          simp [receive_fst]
        · have hss' : (s' == s) = false := by simpa using hss
          have hnr : nextRead (q.receive s').2 s = nextRead q s := by
            unfold nextRead
            rw [receive_snd, if_neg (fun h => hss h.symm)]
          have hne : ¬ s = s' := fun h => hss h.symm
          rw [hnr, hss', Bool.or_false, List.filter_append]
          simp only [hne, false_or, List.filter_cons, hss', Bool.false_eq_true, if_false,
            List.filter_nil, List.append_nil]

theorem collect_queue (rs : List Routing) (got : List (Nat × Option Msg)) (q : Reads) (s : Nat) :
    (collect rs got q).2.1 s
      = if got.any (fun g => g.1 == s) = false ∧ s ∈ sourcesOf rs then (q s).tail else q s := by
  induction rs generalizing got q with
  | nil => simp [collect, sourcesOf]
  | cons r rs ih =>
    simp only [collect]
    cases hs : r.source with
    | none =>
      simp only
      rw [ih]
      simp only [mem_sources_none rs hs]
    | some s' =>
      simp only [mem_sources_some rs hs]
      split
      · rename_i hany
        rw [ih]
        by_cases hne : s = s'
        · subst hne
          simp [hany]
        · simp only [hne, false_or]
      · rename_i hany
        simp only
        rw [ih, receive_snd, any_snoc]
        by_cases hne : s = s'
        · subst hne
          simp [hany]
        · have hss' : (s' == s) = false := by simpa using (fun h => hne h.symm)
          simp only [hne, false_or, hss', Bool.or_false, if_false]

theorem answersOf_cons_read (d s : Nat) (a : Option Msg) (b : Bool) (es : List Eff) :
    answersOf d (.read s a b :: es) = if s = d then a :: answersOf d es else answersOf d es := by
  unfold answersOf
  rw [List.filterMap_cons]
  by_cases h : s = d <;> simp [h]

/-- Effects of the collection phase: each new source is read once, nothing is sent. -/
theorem collect_eff_answers (rs : List Routing) (got : List (Nat × Option Msg)) (q : Reads) (d : Nat) :
    answersOf d (collect rs got q).2.2
      = if got.any (fun g => g.1 == d) = false ∧ d ∈ sourcesOf rs then [nextRead q d] else [] := by
  induction rs generalizing got q with
  | nil => simp [collect, sourcesOf, answersOf]
  | cons r rs ih =>
    simp only [collect]
    cases hs : r.source with
    | none =>
      simp only
      rw [ih]
      simp only [mem_sources_none rs hs]
    | some s' =>
      simp only [mem_sources_some rs hs]
      split
      · rename_i hany
        rw [ih]
        by_cases hne : d = s'
        · subst hne
          simp [hany]
        · simp only [hne, false_or]
      · rename_i hany
        simp only
        rw [answersOf_cons_read, ih, any_snoc]
        by_cases hne : d = s'
        · subst hne
          simp [hany, receive_fst]
        · have hss' : (s' == d) = false := by simpa using (fun h => hne h.symm)
          have hnr : nextRead (q.receive s').2 d = nextRead q d := by
            unfold nextRead
            rw [receive_snd, if_neg hne]
          have hne' : ¬ s' = d := fun h => hne h.symm
          simp only [hne, hne', false_or, hss', Bool.or_false, if_false, hnr]

theorem collect_eff_kind (rs : List Routing) (got : List (Nat × Option Msg)) (q : Reads) :
    ∀ e ∈ (collect rs got q).2.2, ∃ d a, e = .read d a false := by
  induction rs generalizing got q with
  | nil => simp [collect]
  | cons r rs ih =>
    simp only [collect]
    cases hs : r.source with
    | none => exact ih _ _
    | some s' =>
      simp only
      split
      · exact ih _ _
      · intro e he
        simp only [List.mem_cons] at he
        rcases he with he | he
        · exact ⟨_, _, he⟩
        · exact ih _ _ e he

theorem distributeOne_filter (s t : Nat) (got : List (Nat × Option Msg)) :
    distributeOne s t got = distributeOne s t (got.filter (fun g => g.1 == s)) := by
  induction got with
  | nil => rfl
  | cons g got ih =>
    obtain ⟨s', a⟩ := g
    by_cases h : s' = s
    · subst h
      simp only [beq_self_eq_true, List.filter_cons_of_pos, distributeOne]
      rw [ih]
    · rw [List.filter_cons_of_neg (by simpa using h), ← ih]
      simp only [distributeOne, ne_eq, h, not_false_eq_true, if_true]

/-- The delivery to `t` caused by an answer `a` of the source. -/
def forward (a : Option Msg) (t : Nat) : Option (Nat × Msg) :=
  (a.filter Known).map (fun m => (t, m))

theorem forwardable_known (m : Msg) : forwardable m = Known m := by cases m <;> rfl

theorem distributeOne_single (s t : Nat) (a : Option Msg) :
    distributeOne s t [(s, a)] = (forward a t).toList.map (fun x => Eff.send x.1 x.2) := by
  cases a with
  | none => simp [distributeOne, forward]
  | some m =>
    simp only [distributeOne, forwardable_known]
    by_cases h : Known m = true
    · simp [h, forward, Option.filter]
    · simp at h
      simp [h, forward, Option.filter]

theorem passes_external (rs : List Routing) : passes (external rs) = passes rs := by
  induction rs with
  | nil => rfl
  | cons r rs ih =>
    obtain ⟨s, t⟩ := r
    cases s <;> cases t <;>
      simp [external, passes] at ih ⊢ <;> exact ih

theorem sources_external (rs : List Routing) : sourcesOf (external rs) = (passes rs).map (·.1) := by
  induction rs with
  | nil => rfl
  | cons r rs ih =>
    obtain ⟨s, t⟩ := r
    cases s <;> cases t <;>
      simp [external, passes, sourcesOf] at ih ⊢ <;> exact ih

theorem distribute_eq (q : Reads) (rs : List Routing) (all : List Routing)
    (h : ∀ r ∈ rs, ∀ s, r.source = some s → s ∈ sourcesOf all) :
    distribute (collect all [] q).1 rs
      = ((passes rs).filterMap (fun p => forward (nextRead q p.1) p.2)).map
          (fun x => Eff.send x.1 x.2) := by
  induction rs with
  | nil => rfl
  | cons r rs ih =>
    have ih := ih (fun x hx => h x (by simp [hx]))
    obtain ⟨s, t⟩ := r
    simp only [distribute, ih]
    cases s with
    | none => simp [passes]
    | some s =>
      cases t with
      | none => simp [passes]
      | some t =>
        simp only
        rw [distributeOne_filter, collect_got]
        have hm := h ⟨some s, some t⟩ (by simp) s rfl
        simp only [List.any_nil, Bool.false_eq_true, if_false, hm, if_true]
        rw [distributeOne_single]
        simp only [passes, List.filterMap_cons]
        cases forward (nextRead q s) t <;> simp

theorem processExternal_eff (rs : List Routing) (q : Reads) :
    (processExternal rs q).2 = (collect (external rs) [] q).2.2
      ++ ((passes rs).filterMap (fun p => forward (nextRead q p.1) p.2)).map
          (fun x => Eff.send x.1 x.2) := by
  simp only [processExternal]
  rw [distribute_eq q (external rs) (external rs), passes_external]
  intro r hr s hs
  simp only [sourcesOf, List.mem_filterMap]
  exact ⟨r, hr, hs⟩

theorem processExternal_queue (rs : List Routing) (q : Reads) (s : Nat) :
    (processExternal rs q).1 s = if s ∈ (passes rs).map (·.1) then (q s).tail else q s := by
  simp only [processExternal]
  rw [collect_queue, sources_external]
  by_cases h : s ∈ (passes rs).map (·.1)
  · rw [if_pos ⟨rfl, h⟩, if_pos h]
  · rw [if_neg (fun x => h x.2), if_neg h]

theorem deliveries_append (a b : List Eff) : deliveries (a ++ b) = deliveries a ++ deliveries b := by
  simp [deliveries]
theorem answersOf_append (d) (a b : List Eff) : answersOf d (a ++ b) = answersOf d a ++ answersOf d b := by
  simp [answersOf]

theorem deliveries_reads (es : List Eff) (h : ∀ e ∈ es, ∃ d a b, e = .read d a b) :
    deliveries es = [] := by
  simp only [deliveries, List.filterMap_eq_nil_iff]
  intro e he
  obtain ⟨d, a, b, rfl⟩ := h e he
  rfl

theorem deliveries_sends (l : List (Nat × Msg)) :
    deliveries (l.map (fun x => Eff.send x.1 x.2)) = l := by
  simp [deliveries, List.filterMap_map]
  induction l with
  | nil => rfl
  | cons x l ih => simp [ih]

theorem answersOf_sends (d : Nat) (l : List (Nat × Msg)) :
    answersOf d (l.map (fun x => Eff.send x.1 x.2)) = [] := by
  simp [answersOf, List.filterMap_map]

theorem applLoop_eff_kind (rs : List Routing) (q : Reads) :
    ∀ e ∈ (applLoop rs q).2.2, ∃ d a, e = .read d a true := by
  induction rs generalizing q with
  | nil => simp [applLoop]
  | cons r rs ih =>
    simp only [applLoop]
    cases hs : r.source with
    | none => simp
    | some s =>
      simp only
      cases hr : (q.receive s).1 with
      | some m => simp
      | none =>
        intro e he
        simp only [List.mem_cons] at he
        rcases he with he | he
        · exact ⟨_, _, he⟩
        · exact ih _ e he

theorem applLoop_conserve (rs : List Routing) (q : Reads) (d : Nat) :
    (answersOf d (applLoop rs q).2.2).filterMap id ++ ((applLoop rs q).2.1 d).filterMap id
      = (q d).filterMap id := by
  induction rs generalizing q with
  | nil => simp [applLoop, answersOf]
  | cons r rs ih =>
    simp only [applLoop]
    cases hs : r.source with
    | none => simp [answersOf]
    | some s =>
      simp only
      have hc := receive_conserve q s
      have hq := receive_snd q s
      cases hr : (q.receive s).1 with
      | some m =>
        rw [hr] at hc
        simp only
        by_cases hd : s = d
        · subst hd
          simpa [answersOf] using hc
        · have hd' : ¬ d = s := fun h => hd h.symm
          simp [answersOf, hd, hq, hd']
      | none =>
        rw [hr] at hc
        simp only
        have := ih (q.receive s).2
        have e : (answersOf d (.read s none true :: (applLoop rs (q.receive s).2).2.2)).filterMap id
            = (answersOf d (applLoop rs (q.receive s).2).2.2).filterMap id := by
          simp only [answersOf]
          rw [List.filterMap_cons]
          by_cases hd : s = d <;> simp [hd]
        rw [e, this]
        by_cases hd : s = d
        · subst hd
          simpa using hc
        · have hd' : ¬ d = s := fun h => hd h.symm
          rw [hq, if_neg hd']

theorem applLoop_answer (rs : List Routing) (q : Reads) :
    ((applLoop rs q).1.join).toList = toApplAll (applLoop rs q).2.2 := by
  induction rs generalizing q with
  | nil => rfl
  | cons r rs ih =>
    simp only [applLoop]
    cases hs : r.source with
    | none => rfl
    | some s =>
      simp only
      cases hr : (q.receive s).1 with
      | some m => rfl
      | none =>
        simp only
        rw [ih]
        simp [toApplAll]

theorem applLoop_none (rs : List Routing) (q : Reads) (h : (applLoop rs q).1 = some none) (d : Nat)
    (hd : d ∈ sourcesOf rs) : nextRead q d = none := by
  induction rs generalizing q with
  | nil => simp [sourcesOf] at hd
  | cons r rs ih =>
    simp only [applLoop] at h
    cases hs : r.source with
    | none => simp [hs] at h
    | some s =>
      simp only [hs] at h
      cases hr : (q.receive s).1 with
      | some m => simp [hr] at h
      | none =>
        simp only [hr] at h
        by_cases hds : d = s
        · subst hds
          rw [← receive_fst, hr]
        · have := ih (q.receive s).2 h (by simpa [sourcesOf, hs, hds] using hd)
          rw [← this]
          unfold nextRead
          rw [receive_snd, if_neg hds]

theorem sources_toAppl (rs : List Routing) : sourcesOf (toAppl rs) = applSources rs := by
  induction rs with
  | nil => rfl
  | cons r rs ih =>
    obtain ⟨s, t⟩ := r
    cases s <;> cases t <;>
      simp [toAppl, applSources, sourcesOf] at ih ⊢ <;> exact ih

theorem applLoop_queue_other (rs : List Routing) (q : Reads) (d : Nat) (hd : d ∉ sourcesOf rs) :
    (applLoop rs q).2.1 d = q d := by
  induction rs generalizing q with
  | nil => rfl
  | cons r rs ih =>
    simp only [applLoop]
    cases hs : r.source with
    | none => rfl
    | some s =>
      have hne : d ≠ s := by
        rintro rfl
        simp [sourcesOf, hs] at hd
      have hrs : d ∉ sourcesOf rs := by
        simp [sourcesOf, hs] at hd ⊢
        exact hd.2
      simp only
      cases hr : (q.receive s).1 with
      | some m => simp [receive_snd, hne]
      | none =>
        simp only
        rw [ih _ hrs, receive_snd, if_neg hne]

/-- All reads of a `receive()` move messages from the future to the past. -/
theorem receive_conserve_all (rs : List Routing) (q : Reads) (d : Nat) :
    (answersOf d (receive rs q).2.2).filterMap id ++ ((receive rs q).2.1 d).filterMap id
      = (q d).filterMap id := by
  simp only [receive]
  rw [answersOf_append, List.filterMap_append, List.append_assoc, applLoop_conserve,
    processExternal_eff, answersOf_append, answersOf_sends, collect_eff_answers, sources_external,
    processExternal_queue, List.append_nil]
  simp only [List.any_nil, true_and]
  by_cases h : d ∈ (passes rs).map (·.1)
  · rw [if_pos h, if_pos h]
    unfold nextRead
    cases hq : q d with
    | nil => simp
    | cons a rest => cases a <;> simp
  · rw [if_neg h, if_neg h]
    simp

end PySwitch.Routing
