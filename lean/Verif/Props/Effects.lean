import Verif.Lemmas.Effects
/-
C48, C71, C72: effect slots.
-/
namespace PySwitch.Props
open PySwitch.Effects

/-! ### C48 -/

/-- C48. Every effect type number, known or not, has a category which has a name and a color (no index error), whatever
the settings of the action. -/
theorem C48_total (c : Effects.Config) (t : Int) :
    (categoryColor c (getCategory t)).isSome = true ∧ (categoryText c (getCategory t) (some t)).isSome = true :=
  category_total c t

/-- C48. A type number shows the name and color of its family. -/
theorem C48_family (t : Int) (f : Int × Int × String × Color) (hf : f ∈ families) (ht : InFamily f t) :
    categoryText {} (getCategory t) (some t) = some f.2.2.1 ∧ categoryColor {} (getCategory t) = some f.2.2.2 := by
  obtain ⟨h1, h2⟩ := ht
  simp only [families, List.mem_cons, List.not_mem_nil, or_false] at hf
  have hcat : ∀ k : Nat, getCategory t = k → categoryNames[k]? = some f.2.2.1 → categoryColors[k]? = some f.2.2.2 →
      categoryText {} (getCategory t) (some t) = some f.2.2.1 ∧ categoryColor {} (getCategory t) = some f.2.2.2 := by
    intro k hk hn hc
    rw [hk]
    exact ⟨by simp [categoryText, hn], by simp [categoryColor, hc]⟩
  rcases hf with rfl | rfl | rfl | rfl | rfl | rfl | rfl | rfl | rfl | rfl | rfl | rfl | rfl | rfl | rfl | rfl | rfl |
    rfl | rfl | rfl | rfl | rfl <;> simp only at h1 h2
  · exact hcat 1 (by unfold getCategory; grind) rfl rfl
  · exact hcat 11 (by unfold getCategory; grind) rfl rfl
  · exact hcat 1 (by unfold getCategory; grind) rfl rfl
  · exact hcat 2 (by unfold getCategory; grind) rfl rfl
  · exact hcat 3 (by unfold getCategory; grind) rfl rfl
  · exact hcat 4 (by unfold getCategory; grind) rfl rfl
  · exact hcat 5 (by unfold getCategory; grind) rfl rfl
  · exact hcat 6 (by unfold getCategory; grind) rfl rfl
  · exact hcat 17 (by unfold getCategory; grind) rfl rfl
  · exact hcat 16 (by unfold getCategory; grind) rfl rfl
  · exact hcat 15 (by unfold getCategory; grind) rfl rfl
  · exact hcat 6 (by unfold getCategory; grind) rfl rfl
  · exact hcat 15 (by unfold getCategory; grind) rfl rfl
  · exact hcat 18 (by unfold getCategory; grind) rfl rfl
  · exact hcat 7 (by unfold getCategory; grind) rfl rfl
  · exact hcat 8 (by unfold getCategory; grind) rfl rfl
  · exact hcat 9 (by unfold getCategory; grind) rfl rfl
  · exact hcat 10 (by unfold getCategory; grind) rfl rfl
  · exact hcat 11 (by unfold getCategory; grind) rfl rfl
  · exact hcat 12 (by unfold getCategory; grind) rfl rfl
  · exact hcat 13 (by unfold getCategory; grind) rfl rfl
  · exact hcat 14 (by unfold getCategory; grind) rfl rfl

example : InFamily (17, 42, "Dist", (255, 0, 0)) 33 := by unfold InFamily; decide

/-- C48. All other type numbers are shown as empty. -/
theorem C48_other (t : Int) (h : ∀ f ∈ families, ¬ InFamily f t) :
    categoryText {} (getCategory t) (some t) = some "-" ∧ categoryColor {} (getCategory t) = some (50, 50, 50) := by
  have : getCategory t = 0 := by
    simp only [families, List.mem_cons, List.not_mem_nil, or_false, forall_eq_or_imp, forall_eq, InFamily] at h
    unfold getCategory
    repeat (refine ite_ind (P := (· = 0)) (fun _ => by omega) (fun _ => ?_))
    rfl
  rw [this]
  exact ⟨rfl, rfl⟩

/-- C48. The families exclude each other. -/
theorem C48_disjoint (t : Int) :
    families.Pairwise (fun f g => ¬ (InFamily f t ∧ InFamily g t)) := by
  have key : families.Pairwise (fun f g => f.2.1 < g.1) := by decide +kernel
  refine key.imp ?_
  intro f g hfg h
  unfold InFamily at h
  omega

/-- C48. Every documented effect type belongs to a family, so it is never shown as empty. -/
theorem C48_documented (t : Int) (ht : t ∈ documented) : ∃ f ∈ families, InFamily f t := by
  simp only [documented, List.mem_cons, List.not_mem_nil, or_false] at ht
  have key : ∀ t ∈ documented, (families.any (fun f => decide (f.1 ≤ t) && decide (t ≤ f.2.1))) = true := by
    decide +kernel
  have := key t (by simp only [documented, List.mem_cons, List.not_mem_nil, or_false]; exact ht)
  rw [List.any_eq_true] at this
  obtain ⟨f, hf, h⟩ := this
  simp only [Bool.and_eq_true, decide_eq_true_eq] at h
  exact ⟨f, hf, h⟩

/-- C48. Every effect with a distinct name, except "Empty" and type 137, has a category which is not "empty".
Missing: type 137, see `C48_dual_chrom`. -/
theorem C48_extended_partial (e : Int × String) (he : e ∈ extendedNames) (h0 : e.1 ≠ 0) (h137 : e.1 ≠ 137) :
    getCategory e.1 ≠ CATEGORY_NONE := by
  have key : ∀ e ∈ extendedNames, e.1 = 0 ∨ e.1 = 137 ∨ getCategory e.1 ≠ CATEGORY_NONE := by decide +kernel
  rcases key e he with h | h | h
  · exact absurd h h0
  · exact absurd h h137
  · exact h

/-- C48 fails for type 137: it has the name "DualChrom", but it is treated as an empty slot, so it is always shown
as switched off in the color of an empty slot. -/
theorem C48_dual_chrom : (137, "DualChrom") ∈ extendedNames ∧ getCategory 137 = CATEGORY_NONE := by
  decide +kernel

/-! ### C71 -/

/-- C71. After any history, if the effect type is known, the label shows the text for that type, although it is only
written when the type has changed. -/
theorem C71_text (c : Effects.Config) (hc : c.hasLabel = true) (h : List Op) (t : Int)
    (ht : (run c initial h).2.fxtype = some t) :
    labelText none (run c initial h).1.flatten = categoryText c (getCategory t) (some t) := by
  by_cases hne : h = []
  · subst hne; simp [run, initial] at ht
  · exact (run_shown h (initial_shown c)).text hc t ((run_drawn hne).type ▸ ht)

/-- C71. After any history, the LEDs show the color of the category of the current effect type (of an empty slot if it
is not known), bright exactly if the state is on. -/
theorem C71_color (c : Effects.Config) (h : List Op) (hne : h ≠ []) :
    ∃ k, categoryColor c (match (run c initial h).2.fxtype with | some t => getCategory t | none => CATEGORY_NONE) =
        some k ∧
      leds none (run c initial h).1.flatten = some (encode k, (run c initial h).2.base.state) := by
  have hd := run_drawn (c := c) hne
  have hl := (run_shown h (initial_shown c)).led _ _ hd.color hd.state
  have hk : (categoryColor c (categoryOf (run c initial h).2.fxtype)).isSome = true := by
    cases hf : (run c initial h).2.fxtype with
    | none => simp only [categoryOf]; exact (category_total c 0).1
    | some t => exact (category_total c t).1
  obtain ⟨k, hk⟩ := Option.isSome_iff_exists.1 hk
  refine ⟨k, hk, ?_⟩
  rw [hl, hk]
  rfl

/-- C71. Different colors are encoded differently. -/
theorem C71_encode (a b : Color) (ha : a.1 < 256 ∧ a.2.1 < 256 ∧ a.2.2 < 256) (hb : b.1 < 256 ∧ b.2.1 < 256 ∧ b.2.2 < 256)
    (h : encode a = encode b) : a = b := by
  obtain ⟨a1, a2, a3⟩ := a
  obtain ⟨b1, b2, b3⟩ := b
  simp only [encode] at *
  simp only [Prod.mk.injEq]
  omega

/-- The type and value known after an event. -/
theorem C71_known (c : Effects.Config) (h : List Op) (o : Op) :
    (run c initial (h ++ [o])).2.fxtype =
      (match o with | .fxtype t => t | .enable _ t => t | _ => (run c initial h).2.fxtype) ∧
    (run c initial (h ++ [o])).2.base.value =
      (match o with | .value v => v | .enable v _ => v | _ => (run c initial h).2.base.value) := by
  rw [(run_snoc c initial h o).1]
  have key : ∀ st, (updateDisplays c st).1.fxtype = st.fxtype ∧ (updateDisplays c st).1.base.value = st.base.value := by
    intro st
    refine ⟨rfl, ?_⟩
    unfold updateDisplays
    simp only
    rw [(Binary.updateDisplays_sync _ _).2]
    split <;> rfl
  cases o <;> exact key _

example : labelText none (run {} initial [.value (some 1), .fxtype (some 33), .toggle, .fxtype (some 129)]).1.flatten =
    some "Pitch" := by decide
example : leds none (run {} initial [.value (some 1), .fxtype (some 33)]).1.flatten = some (encode (255, 0, 0), true) := by
  decide

/-! ### C72 -/

/-- C72. After any history: when the device reports that the slot has become empty, the switch is off.
Missing: an on/off value arriving later, see `C72_on_again`. -/
theorem C72_empty_partial (c : Effects.Config) (h : List Op) (t : Option Int)
    (ht : t = none ∨ t = some 0 ∨ ∃ n, t = some n ∧ ∀ f ∈ families, ¬ InFamily f n) :
    (run c initial (h ++ [.fxtype t])).2.base.state = false := by
  have hcat : categoryOf t = CATEGORY_NONE := by
    rcases ht with rfl | rfl | ⟨n, rfl, hn⟩
    · rfl
    · rfl
    · simp only [families, List.mem_cons, List.not_mem_nil, or_false, forall_eq_or_imp, forall_eq, InFamily] at hn
      unfold categoryOf getCategory
      simp only
      repeat (refine ite_ind (P := (· = 0)) (fun _ => by omega) (fun _ => ?_))
      rfl
  have hv : (run c initial h).2.base.currentValue = some (run c initial h).2.base.value ∨
      (run c initial h).2.base.value = none := by
    by_cases hne : h = []
    · subst hne; exact .inr rfl
    · exact .inl (run_drawn hne).value
  rw [(run_snoc c initial h _).1]
  generalize (run c initial h).2 = st at hv
  simp only [step, updateDisplays, hcat, if_true]
  rw [(Binary.updateDisplays_fields _ _).2.1]
  unfold Binary.evalPart
  simp only
  split
  · rename_i hn
    rcases hv with hv | hv
    · exact absurd hv hn
    · simp [Binary.evaluateValue, Binary.evaluate, hv]
  · rfl

/-- C72. After any history: when an on/off value arrives which differs from the one known before, the switch is on
exactly if the value is at least 1. -/
theorem C72_value (c : Effects.Config) (h : List Op) (v : Option Int) (hv : v ≠ (run c initial h).2.base.value) :
    (run c initial (h ++ [.value v])).2.base.state = true ↔ ∃ n, v = some n ∧ 1 ≤ n := by
  have hs : (run c initial h).2.base.currentValue = some (run c initial h).2.base.value ∨
      (run c initial h).2.base.currentValue = none := by
    by_cases hne : h = []
    · subst hne; exact .inr rfl
    · exact .inl (run_drawn hne).value
  rw [(run_snoc c initial h _).1]
  generalize (run c initial h).2 = st at hv hs
  simp only [step, updateDisplays]
  rw [(Binary.updateDisplays_fields _ _).2.1]
  unfold Binary.evalPart
  rw [if_pos]
  · cases v with
    | none => split <;> simp [Binary.evaluateValue, Binary.evaluate]
    | some n =>
      have : ∀ b : Bool, Binary.evaluate (baseConfig c (categoryOf st.fxtype)) b (some n) = decide (n ≥ 1) := by
        intro b; rfl
      split <;> simp [Binary.evaluateValue, this]
  · have hv' : ¬ st.base.value = v := fun e => hv e.symm
    split <;> rcases hs with hs | hs <;> simp [hs, hv']

example : (run {} initial ([.fxtype (some 33), .value (some 0)] ++ [.value (some 1)])).2.base.state = true := by decide

/-- C72. A reset or re-enabling evaluates the current value: the switch is on exactly if the value is at least 1. -/
theorem C72_reset (c : Effects.Config) (h : List Op) (v t : Option Int) :
    (run c initial (h ++ [.enable v t])).2.base.state = true ↔ ∃ n, v = some n ∧ 1 ≤ n := by
  rw [(run_snoc c initial h _).1]
  generalize (run c initial h).2 = st
  simp only [step, updateDisplays]
  rw [(Binary.updateDisplays_fields _ _).2.1]
  unfold Binary.evalPart
  rw [if_pos]
  · cases v with
    | none => split <;> simp [Binary.evaluateValue, Binary.evaluate]
    | some n =>
      have : ∀ (cat : Nat) (b : Bool), Binary.evaluate (baseConfig c cat) b (some n) = decide (n ≥ 1) := by
        intro cat b; rfl
      split <;> simp [Binary.evaluateValue, this]
  · split <;> simp [reset, Binary.reset]

/-- C72 fails if the on/off value is reported after the type: the empty slot is shown as switched on. -/
theorem C72_on_again : ∃ h : List Op, (run {} initial h).2.fxtype = some 0 ∧ (run {} initial h).2.base.state = true :=
  ⟨[.fxtype (some 0), .value (some 1)], by decide, by decide⟩

/-- C72 fails if an effect which is on is loaded into an empty slot while the on/off value stays the same: it is shown
as switched off, even if the device reports the value again. -/
theorem C72_stale_off : ∃ h : List Op, (run {} initial h).2.fxtype = some 33 ∧
    (run {} initial h).2.base.value = some 1 ∧ h.getLast? = some (.value (some 1)) ∧
    (run {} initial h).2.base.state = false :=
  ⟨[.value (some 1), .fxtype (some 0), .fxtype (some 33), .value (some 1)], by decide, by decide, by decide, by decide⟩

end PySwitch.Props
