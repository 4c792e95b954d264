import Verif.Spec.MappingOptions
/-!
C189: The editor offers exactly the calls of the mappings which exist.
-/
namespace PySwitch.Props
open PySwitch.MappingOptions PySwitch.MappingOptions.Spec

namespace C189

theorem insert_perm (x : List Char) : ∀ l, List.Perm (MappingOptions.insert x l) (x :: l)
  | [] => List.Perm.refl _
  | y :: ys => by
    rw [MappingOptions.insert]
    split
    · exact ((insert_perm x ys).cons y).trans (List.Perm.swap x y ys)
    · exact List.Perm.refl _

theorem sort_perm : ∀ l, List.Perm (sort l) l
  | [] => List.Perm.refl _
  | x :: xs => (insert_perm x (sort xs)).trans ((sort_perm xs).cons x)

theorem not_greater : ∀ {a b : List Char}, greater a b = false → NotAfter a b
  | [], b, _ => .inl ⟨b, rfl⟩
  | _ :: _, [], h => by simp [greater] at h
  | a :: as, b :: bs, h => by
    rw [greater] at h
    by_cases e : a = b
    · subst e
      rw [if_pos rfl] at h
      rcases not_greater h with ⟨t, rfl⟩ | ⟨p, c, d, s, t, rfl, rfl, hl⟩
      · exact .inl ⟨t, rfl⟩
      · exact .inr ⟨a :: p, c, d, s, t, rfl, rfl, hl⟩
    · rw [if_neg e] at h
      refine .inr ⟨[], a, b, as, bs, rfl, rfl, ?_⟩
      have h1 : ¬ b.toNat < a.toNat := by simpa using h
      have h2 : a.toNat ≠ b.toNat := fun h => e (Char.toNat_inj.mp h)
      omega

theorem greater_flip : ∀ {a b : List Char}, greater a b = true → greater b a = false
  | [], _, h => by simp [greater] at h
  | _ :: _, [], _ => rfl
  | a :: as, b :: bs, h => by
    rw [greater] at h ⊢
    by_cases e : a = b
    · subst e
      rw [if_pos rfl] at h ⊢
      exact greater_flip h
    · rw [if_neg e] at h
      rw [if_neg (Ne.symm e)]
      have : b.toNat < a.toNat := by simpa using h
      simp only [decide_eq_false_iff_not]
      omega

theorem le_trans : ∀ {a b c : List Char}, greater a b = false → greater b c = false → greater a c = false
  | [], _, _, _, _ => rfl
  | _ :: _, [], _, h, _ => by simp [greater] at h
  | _ :: _, _ :: _, [], _, h => by simp [greater] at h
  | a :: as, b :: bs, c :: cs, h1, h2 => by
    rw [greater] at h1 h2 ⊢
    by_cases e : a = b
    · subst e
      rw [if_pos rfl] at h1
      by_cases f : a = c
      · subst f
        rw [if_pos rfl] at h2 ⊢
        exact le_trans h1 h2
      · rw [if_neg f] at h2 ⊢
        exact h2
    · rw [if_neg e] at h1
      have h1 : ¬ b.toNat < a.toNat := by simpa using h1
      have hab : a.toNat ≠ b.toNat := fun h => e (Char.toNat_inj.mp h)
      by_cases f : b = c
      · subst f
        rw [if_neg e]
        simpa using h1
      · rw [if_neg f] at h2
        have h2 : ¬ c.toNat < b.toNat := by simpa using h2
        have : a ≠ c := by rintro rfl; omega
        rw [if_neg this]
        simp only [decide_eq_false_iff_not]
        omega

theorem insert_sorted (x : List Char) : ∀ l : List (List Char), l.Pairwise (fun a b => greater a b = false) → (MappingOptions.insert x l).Pairwise (fun a b => greater a b = false)
  | [], _ => List.pairwise_singleton _ _
  | y :: ys, h => by
    obtain ⟨h1, h2⟩ := List.pairwise_cons.mp h
    rw [MappingOptions.insert]
    split
    · rename_i hg
      refine List.pairwise_cons.mpr ⟨fun z hz => ?_, insert_sorted x ys h2⟩
      rcases List.mem_cons.mp ((insert_perm x ys).mem_iff.mp hz) with rfl | hz
      · exact greater_flip hg
      · exact h1 z hz
    · rename_i hg
      have hg : greater x y = false := by simpa using hg
      refine List.pairwise_cons.mpr ⟨fun z hz => ?_, h⟩
      rcases List.mem_cons.mp hz with rfl | hz
      · exact hg
      · exact le_trans hg (h1 z hz)

theorem sort_sorted : ∀ l, (sort l).Pairwise (fun a b => greater a b = false)
  | [] => List.Pairwise.nil
  | x :: xs => insert_sorted x _ (sort_sorted xs)

theorem variants (m : Mapping) (vs : List (List Char)) (h : getMappingVariants m = some vs) (o : List Char) : o ∈ vs ↔ Call m o := by
  obtain ⟨name, ps⟩ := m
  cases ps with
  | nil =>
    cases Option.some.inj h
    rw [List.mem_singleton]
    constructor
    · rintro rfl; exact .plain rfl
    · intro hc; cases hc with
      | plain _ => rfl
      | single p v hp _ => cases hp
      | named p q ps v hp _ => cases hp
  | cons p ps =>
    have key : ∃ us, vs = addValues ⟨name, p :: ps⟩ p us ∧ (p.range = some us ∨ p.range = none ∧ p.values = some us) := by
      unfold getMappingVariants at h
      simp only at h
      cases hr : p.range with
      | some us => rw [hr] at h; exact ⟨us, (Option.some.inj h).symm, .inl rfl⟩
      | none =>
        rw [hr] at h
        cases hv : p.values with
        | some us => rw [hv] at h; exact ⟨us, (Option.some.inj h).symm, .inr ⟨rfl, rfl⟩⟩
        | none => rw [hv] at h; cases h
    obtain ⟨us, rfl, hu⟩ := key
    have unique : ∀ v, Allows p v → v ∈ us := by
      rintro v ⟨ws, hv, hw⟩
      rcases hu with hu | ⟨hu, hu2⟩ <;> rcases hw with hw | ⟨hw, hw2⟩
      · rw [hu] at hw; cases hw; exact hv
      · rw [hu] at hw; cases hw
      · rw [hu] at hw; cases hw
      · rw [hu2] at hw2; cases hw2; exact hv
    unfold addValues
    rw [List.mem_map]
    constructor
    · rintro ⟨v, hv, rfl⟩
      cases ps with
      | nil =>
        have := Call.single (m := ⟨name, [p]⟩) p v rfl ⟨us, hv, hu⟩
        simpa using this
      | cons q ps =>
        have := Call.named (m := ⟨name, p :: q :: ps⟩) p q ps v rfl ⟨us, hv, hu⟩
        simpa using this
    · intro hc
      cases hc with
      | plain hp => cases hp
      | single p' v hp ha => cases hp; exact ⟨v, unique v ha, by simp⟩
      | named p' q ps' v hp ha => cases hp; exact ⟨v, unique v ha, by simp⟩

theorem collected : ∀ (ms : List Mapping) (ret out : List (List Char)), collect ms ret = some out → ∀ o, o ∈ out ↔ o ∈ ret ∨ ∃ m ∈ ms, Call m o
  | [], ret, out, h, o => by
    cases Option.some.inj h
    simp
  | m :: ms, ret, out, h, o => by
    rw [collect] at h
    cases hv : getMappingVariants m with
    | none => rw [hv] at h; cases h
    | some vs =>
      rw [hv] at h
      rw [collected ms _ _ h o, List.mem_append, variants m vs hv o]
      simp [or_assoc]

theorem fails : ∀ (ms : List Mapping) (ret : List (List Char)), collect ms ret = none ↔ ∃ m ∈ ms, getMappingVariants m = none
  | [], ret => by simp [collect]
  | m :: ms, ret => by
    rw [collect]
    cases hv : getMappingVariants m with
    | none => simp [hv]
    | some vs => simp [hv, fails ms]

theorem variants_none (m : Mapping) : getMappingVariants m = none ↔ ∃ p ps, m.parameters = p :: ps ∧ ¬ HasValues p := by
  obtain ⟨name, ps⟩ := m
  cases ps with
  | nil => simp [getMappingVariants]
  | cons p ps =>
    obtain ⟨n, r, v⟩ := p
    cases r <;> cases v <;> simp [getMappingVariants, HasValues]

end C189

/-- The options are exactly the calls of the mappings of all clients with the values their first parameters allow, and the option for none exactly if it is asked for. -/
theorem C189_offered (clients : List (List Mapping)) (addNone : Bool) (options : List (List Char)) (h : generate clients addNone = some options) (o : List Char) :
    o ∈ options ↔ (addNone = true ∧ o = "None".toList) ∨ ∃ c ∈ clients, ∃ m ∈ c, Call m o := by
  unfold generate at h
  cases hc : collect clients.flatten (if addNone then ["None".toList] else []) with
  | none => rw [hc] at h; cases h
  | some l =>
    rw [hc] at h
    cases Option.some.inj h
    rw [(C189.sort_perm l).mem_iff, C189.collected _ _ _ hc o]
    have : (∃ m ∈ clients.flatten, Call m o) ↔ ∃ c ∈ clients, ∃ m ∈ c, Call m o := by
      constructor
      · rintro ⟨m, hm, hcall⟩
        obtain ⟨c, hc, hmc⟩ := List.mem_flatten.mp hm
        exact ⟨c, hc, m, hmc, hcall⟩
      · rintro ⟨c, hc, m, hm, hcall⟩
        exact ⟨m, List.mem_flatten.mpr ⟨c, hc, hm⟩, hcall⟩
    rw [this]
    cases addNone <;> simp

namespace C189

theorem variants_calls (m : Mapping) (vs : List (List Char)) (h : getMappingVariants m = some vs) : vs = callsOf m := by
  obtain ⟨name, ps⟩ := m
  cases ps with
  | nil => exact (Option.some.inj h).symm
  | cons p ps =>
    obtain ⟨n, r, v⟩ := p
    cases r with
    | some r => cases ps <;> simp_all [getMappingVariants, addValues, callsOf, valuesOf]
    | none =>
      cases v with
      | some v => cases ps <;> simp_all [getMappingVariants, addValues, callsOf, valuesOf]
      | none => simp [getMappingVariants] at h

theorem collect_calls : ∀ (ms : List Mapping) (ret out : List (List Char)), collect ms ret = some out → out = ret ++ ms.flatMap callsOf
  | [], ret, out, h => by cases Option.some.inj h; simp
  | m :: ms, ret, out, h => by
    rw [collect] at h
    cases hv : getMappingVariants m with
    | none => rw [hv] at h; cases h
    | some vs =>
      rw [hv] at h
      rw [collect_calls ms _ _ h, variants_calls m vs hv]
      simp

end C189

/-- Each call is offered as often as there are mappings and values for it: nothing is doubled. -/
theorem C189_once (clients : List (List Mapping)) (addNone : Bool) (options : List (List Char)) (h : generate clients addNone = some options) :
    options.Perm ((if addNone then ["None".toList] else []) ++ clients.flatten.flatMap callsOf) := by
  unfold generate at h
  cases hc : collect clients.flatten (if addNone then ["None".toList] else []) with
  | none => rw [hc] at h; cases h
  | some l =>
    rw [hc] at h
    cases Option.some.inj h
    rw [← C189.collect_calls _ _ _ hc]
    exact C189.sort_perm l

/-- The options are in alphabetical order. -/
theorem C189_sorted (clients : List (List Mapping)) (addNone : Bool) (options : List (List Char)) (h : generate clients addNone = some options) :
    options.Pairwise NotAfter := by
  unfold generate at h
  cases hc : collect clients.flatten (if addNone then ["None".toList] else []) with
  | none => rw [hc] at h; cases h
  | some l =>
    rw [hc] at h
    cases Option.some.inj h
    exact (C189.sort_sorted l).imp C189.not_greater

/-- There is a list unless a mapping has a first parameter without any values. -/
theorem C189_fails (clients : List (List Mapping)) (addNone : Bool) :
    generate clients addNone = none ↔ ∃ c ∈ clients, ∃ m ∈ c, ∃ p ps, m.parameters = p :: ps ∧ ¬ HasValues p := by
  unfold generate
  rw [Option.map_eq_none_iff, C189.fails]
  constructor
  · rintro ⟨m, hm, hn⟩
    obtain ⟨c, hc, hmc⟩ := List.mem_flatten.mp hm
    exact ⟨c, hc, m, hmc, (C189.variants_none m).mp hn⟩
  · rintro ⟨c, hc, m, hm, hp⟩
    exact ⟨m, List.mem_flatten.mpr ⟨c, hc, hm⟩, (C189.variants_none m).mpr hp⟩

/-- Two clients with mappings without and with a parameter. -/
example : generate [[⟨"TUNER".toList, []⟩], [⟨"SLOT".toList, [⟨"slot".toList, some ["2".toList, "1".toList], none⟩]⟩]] true =
    some ["None".toList, "SLOT(1)".toList, "SLOT(2)".toList, "TUNER()".toList] := by decide +kernel

end PySwitch.Props
