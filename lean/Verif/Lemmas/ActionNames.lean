import Verif.Spec.ActionNames
import Verif.Lemmas.PropertiesNames

/-!
Replacing tokens, and the arguments of a call.
-/

namespace PySwitch.ActionNames
open PySwitch.Properties (Text lit intText intText_nat)
open Spec

/-- Nothing which is special in a replacement. -/
def Clean (v : Text) : Prop := '{' ∉ v ∧ '$' ∉ v

theorem findFirst_absent {x str : Text} (h : '{' ∉ str) : findFirst ('{' :: x) str = none := by
  induction str with
  | nil => rfl
  | cons c s ih =>
    simp only [List.mem_cons, not_or] at h
    have : ('{' == c) = false := by simp [h.1]
    simp only [findFirst, List.isPrefixOf, this, Bool.false_and, Bool.false_eq_true, if_false, ih h.2, Option.map_none]

theorem findFirst_at {x a z : Text} (h : '{' ∉ a) : findFirst ('{' :: x) (a ++ ('{' :: x ++ z)) = some (a, z) := by
  induction a with
  | nil =>
    have : ('{' :: x).isPrefixOf ('{' :: (x ++ z)) = true := by
      rw [List.isPrefixOf_iff_prefix]; exact ⟨z, by simp⟩
    simp only [List.nil_append, List.cons_append, findFirst, this, if_true]
    simp
  | cons c s ih =>
    simp only [List.mem_cons, not_or] at h
    have : ('{' == c) = false := by simp [h.1]
    simp only [List.cons_append] at ih ⊢
    simp only [findFirst, List.isPrefixOf, this, Bool.false_and, Bool.false_eq_true, if_false, ih h.2, Option.map_some]

theorem expand_clean {b p a v : Text} (h : '$' ∉ v) : expand b p a v = v := by
  induction v with
  | nil => rfl
  | cons c r ih =>
    simp only [List.mem_cons, not_or] at h
    have hc : c ≠ '$' := fun e => h.1 e.symm
    rw [expand.eq_def]
    split
    · rename_i e; simp at e
    all_goals first
      | (rename_i e; simp only [List.cons.injEq] at e; exact absurd e.1 hc)
      | skip
    · rename_i e; simp only [List.cons.injEq] at e; obtain ⟨rfl, rfl⟩ := e; rw [ih h.2]

theorem replace_absent {x v str : Text} (h : '{' ∉ str) : replace ('{' :: x) v str = str := by
  simp only [replace, findFirst_absent h]

theorem replace_at {x v a z : Text} (h : '{' ∉ a) (hv : '$' ∉ v) : replace ('{' :: x) v (a ++ ('{' :: x ++ z)) = a ++ v ++ z := by
  simp only [replace, findFirst_at h, expand_clean hv]

theorem replaceTokens_absent {ps : List Param} {args : Args} {str : Text} (h : '{' ∉ str) : replaceTokens ps args str = str := by
  induction ps with
  | nil => rfl
  | cons p ps ih => simp only [replaceTokens, List.foldl_cons, replace_absent h]; exact ih

/-- One token, which is the one of the first parameter. -/
theorem replaceTokens_one {p : Param} {ps : List Param} {args : Args} {a z : Text} (ha : '{' ∉ a) (hz : '{' ∉ z)
    (hv : Clean (replaceValue args p)) :
    replaceTokens (p :: ps) args (a ++ ('{' :: (p.name ++ ['}']) ++ z)) = a ++ replaceValue args p ++ z := by
  have : replaceTokens (p :: ps) args (a ++ ('{' :: (p.name ++ ['}']) ++ z)) =
      replaceTokens ps args (replace ('{' :: (p.name ++ ['}'])) (replaceValue args p) (a ++ ('{' :: (p.name ++ ['}']) ++ z))) := rfl
  rw [this, replace_at ha hv.2, replaceTokens_absent]
  simp [ha, hz, hv.1]

/-- The tokens of the first two parameters. -/
theorem replaceTokens_two {p q : Param} {ps : List Param} {args : Args} {a b z : Text} (ha : '{' ∉ a) (hb : '{' ∉ b) (hz : '{' ∉ z)
    (hv : Clean (replaceValue args p)) (hw : Clean (replaceValue args q)) :
    replaceTokens (p :: q :: ps) args (a ++ ('{' :: (p.name ++ ['}']) ++ (b ++ ('{' :: (q.name ++ ['}']) ++ z)))) =
      a ++ replaceValue args p ++ b ++ replaceValue args q ++ z := by
  have : replaceTokens (p :: q :: ps) args (a ++ ('{' :: (p.name ++ ['}']) ++ (b ++ ('{' :: (q.name ++ ['}']) ++ z)))) =
      replaceTokens (q :: ps) args (replace ('{' :: (p.name ++ ['}'])) (replaceValue args p)
        (a ++ ('{' :: (p.name ++ ['}']) ++ (b ++ ('{' :: (q.name ++ ['}']) ++ z))))) := rfl
  rw [this, replace_at ha hv.2]
  have e : a ++ replaceValue args p ++ (b ++ ('{' :: (q.name ++ ['}']) ++ z)) =
      (a ++ replaceValue args p ++ b) ++ ('{' :: (q.name ++ ['}']) ++ z) := by simp
  rw [e, replaceTokens_one (by simp [ha, hb, hv.1]) hz hw]

theorem digit_clean {c : Char} (h : c.isDigit = true) : c ≠ '{' ∧ c ≠ '$' ∧ c ≠ '/' ∧ c ≠ ' ' ∧ c ≠ '"' ∧ c ≠ '\'' ∧ c ≠ 'N' := by
  refine ⟨?_, ?_, ?_, ?_, ?_, ?_, ?_⟩ <;> (rintro rfl; simp [Char.isDigit] at h)

theorem intText_digits (n : Nat) : ∀ c ∈ intText (n : Int), c.isDigit = true := by
  rw [intText_nat]; exact fun c hc => Nat.isDigit_of_mem_toDigits (by decide) (by decide) hc

theorem intText_clean (n : Nat) : Clean (intText (n : Int)) :=
  ⟨fun h => (digit_clean (intText_digits n _ h)).1 rfl, fun h => (digit_clean (intText_digits n _ h)).2.1 rfl⟩

theorem intText_ne_none (n : Nat) : intText (n : Int) ≠ lit "None" := by
  intro h
  have : 'N' ∈ intText (n : Int) := by rw [h]; decide
  exact (digit_clean (intText_digits n _ this)).2.2.2.2.2.2 rfl

theorem Code_clean {t : Text} {v : PyVal} (h : v.Code t) : Clean t := by
  cases v with
  | none => cases h; exact ⟨by decide, by decide⟩
  | int n => cases h; exact intText_clean n
  | auto => rcases h with rfl | rfl <;> exact ⟨by decide, by decide⟩

/-! ### Arguments -/

theorem nameArgs_call (names : List Text) (c : Call) (h : c.pos.length ≤ names.length) :
    nameArgs names c.args = ((names.zip c.pos) ++ c.kw).map fun a => (some a.1, a.2) := by
  obtain ⟨pos, kw⟩ := c
  simp only [Call.args] at h ⊢
  induction pos generalizing names with
  | nil =>
    simp only [List.map_nil, List.nil_append, List.zip_nil_right]
    induction kw with
    | nil => rfl
    | cons a kw ih => simp only [List.map_cons, nameArgs, ih]
  | cons v pos ih =>
    cases names with
    | nil => simp at h
    | cons n names =>
      simp only [List.map_cons, List.cons_append, nameArgs, List.zip_cons_cons, List.head?_cons, List.tail_cons]
      rw [ih names (by simpa using h)]

theorem find_key {l : List (Text × Text)} (h : (l.map (·.1)).Nodup) {p t : Text} :
    getArgument (l.map fun a => (some a.1, a.2)) p = some t ↔ (p, t) ∈ l := by
  induction l with
  | nil => simp [getArgument]
  | cons a l ih =>
    simp only [List.map_cons, List.nodup_cons, List.mem_map, not_exists, not_and] at h
    have ih := ih h.2
    unfold getArgument at ih ⊢
    simp only [List.map_cons, List.find?_cons, List.mem_cons]
    by_cases e : a.1 = p
    · subst e
      simp only [beq_self_eq_true, Option.map_some, Option.some.injEq]
      constructor
      · rintro rfl; exact .inl rfl
      · rintro (e | hm)
        · rw [← e]
        · exact absurd rfl (h.1 (a.1, t) hm)
    · have : (some a.1 == some p) = false := by simp [e]
      simp only [this]
      rw [ih]
      constructor
      · exact .inr
      · rintro (e' | hm)
        · rw [← e'] at e; exact absurd rfl e
        · exact hm

theorem mem_zip_iff {l m : List Text} {p t : Text} : (p, t) ∈ l.zip m ↔ ∃ i : Nat, l[i]? = some p ∧ m[i]? = some t := by
  rw [List.mem_iff_getElem?]
  constructor
  · rintro ⟨i, h⟩; exact ⟨i, List.getElem?_zip_eq_some.1 h⟩
  · rintro ⟨i, h⟩; exact ⟨i, List.getElem?_zip_eq_some.2 h⟩

theorem zip_fst (l m : List Text) (h : m.length ≤ l.length) : (l.zip m).map (·.1) = l.take m.length := by
  induction m generalizing l with
  | nil => simp
  | cons v m ih =>
    cases l with
    | nil => simp at h
    | cons n l => simp [ih l (by simpa using h)]

/-- The editor finds the value which python gives to the parameter. -/
theorem getArgument_bound {names : List Text} {c : Call} (h : c.Legal names) {p t : Text} :
    getArgument (nameArgs names c.args) p = some t ↔ c.Bound names p t := by
  rw [nameArgs_call names c h.1, find_key, List.mem_append, mem_zip_iff]
  · rfl
  · rw [List.map_append, zip_fst _ _ h.1]; exact h.2

theorem getArgument_none {names : List Text} {c : Call} (h : c.Legal names) {p : Text} :
    getArgument (nameArgs names c.args) p = none ↔ ∀ t, ¬ c.Bound names p t := by
  constructor
  · intro e t hb
    rw [(getArgument_bound h).2 hb] at e
    cases e
  · intro hn
    cases e : getArgument (nameArgs names c.args) p with
    | none => rfl
    | some t => exact absurd ((getArgument_bound h).1 e) (hn t)

theorem given_value {names : List Text} {c : Call} (h : c.Legal names) {p : Text} {v : PyVal} (hv : c.Value names p v) :
    given (getArgument (nameArgs names c.args) p) = decide (v ≠ .none) ∧
      (v ≠ .none → ∃ t, getArgument (nameArgs names c.args) p = some t ∧ v.Code t) := by
  rcases hv with ⟨t, hb, hc⟩ | ⟨hn, rfl⟩
  · rw [(getArgument_bound h).2 hb]
    refine ⟨?_, fun _ => ⟨t, rfl, hc⟩⟩
    cases v with
    | none => cases hc; rfl
    | int n => cases hc; simp [given, intText_ne_none]
    | auto => rcases hc with rfl | rfl <;> decide
  · rw [(getArgument_none h).2 hn]
    exact ⟨rfl, fun h => absurd rfl h⟩

end PySwitch.ActionNames
