import Verif.Spec.Properties

/-!
Lemmas for the dialog with the properties of an action.
-/

namespace PySwitch.Properties
open Spec

theorem text_type {p : Param} : typeOf p = some .text ↔ p.md.type = some .text := by
  unfold typeOf
  cases p.md.type with
  | some t => simp
  | none =>
    simp only [reduceCtorEq, iff_false]
    split
    · simp
    · split
      · simp
      · split
        · split <;> simp
        · simp

theorem single_eq (t : Text) : singleQuotes t = single t := rfl

theorem oneLine_id {t : Text} (h : '\n' ∉ t) (h' : '\r' ∉ t) : oneLine t = t := by
  unfold oneLine
  rw [List.filter_eq_self]
  intro c hc
  simp only [Bool.and_eq_true, bne_iff_ne, ne_eq]
  exact ⟨fun e => h (e ▸ hc), fun e => h' (e ▸ hc)⟩

theorem single_mem {t : Text} {c : Char} (h1 : c ≠ '\'') (h2 : c ≠ '"') : c ∈ single t ↔ c ∈ t := by
  simp only [single, List.mem_map]
  constructor
  · rintro ⟨a, ha, e⟩
    split at e
    · exact absurd e.symm h1
    · exact e ▸ ha
  · intro h
    exact ⟨c, h, by rw [if_neg h2]⟩

theorem single_ne_nil {t : Text} (h : t ≠ []) : single t ≠ [] := by simpa [single] using h

theorem single_idem (t : Text) : single (single t) = single t := by
  simp only [single, List.map_map]
  congr 1
  funext c
  simp only [Function.comp]
  split
  · simp
  · rfl

theorem single_id {t : Text} (h : '"' ∉ t) : single t = t := by
  unfold single
  conv => rhs; rw [← List.map_id t]
  refine List.map_congr_left fun c hc => ?_
  rw [if_neg (fun (e : c = '"') => h (e ▸ hc))]
  rfl

theorem strip_id {s : Text} (h : ∀ c ∈ s, c ≠ '"' ∧ c ≠ '\'') : stripQuotes s = s := by
  unfold stripQuotes
  rw [List.filter_eq_self]
  intro c hc
  simpa using h c hc

/-- A string is quoted again. -/
theorem requote {t : Text} (h : IsString t) : autoQuote t = single t ∧ autoQuote (single t) = single t := by
  obtain ⟨q, s, hq, rfl, hs⟩ := h
  have e1 : single (q :: (s ++ [q])) = '\'' :: (s ++ ['\'']) := by
    have : single s = s := single_id fun hc => (hs _ hc).1 rfl
    unfold single at this
    simp only [single, List.map_cons, List.map_append, List.map_nil, this]
    rcases hq with rfl | rfl <;> simp
  have e2 : ∀ q, q = '"' ∨ q = '\'' → autoQuote (q :: (s ++ [q])) = '\'' :: (s ++ ['\'']) := by
    intro q hq
    have : stripQuotes (q :: (s ++ [q])) = s := by
      have h' := strip_id hs
      unfold stripQuotes at h' ⊢
      rw [List.filter_cons, List.filter_append, h']
      rcases hq with rfl | rfl <;> simp
    rw [autoQuote, this]
  rw [e1]
  exact ⟨e2 q hq, e2 _ (Or.inr rfl)⟩

theorem number_plain {t : Text} (h : isNumber t = true) : t ≠ [] ∧ '"' ∉ t := by
  constructor
  · rintro rfl
    simp [isNumber, unsigned, isDigits] at h
  · intro hq
    have dig : ∀ l : Text, isDigits l = true → '"' ∉ l := by
      intro l hl hc
      simp only [isDigits, Bool.and_eq_true, List.all_eq_true] at hl
      exact absurd (hl.2 _ hc) (by decide)
    have all : ∀ l : Text, l.all Char.isDigit = true → '"' ∉ l := by
      intro l hl hc
      rw [List.all_eq_true] at hl
      exact absurd (hl _ hc) (by decide)
    have key : ∀ u : Text, '"' ∈ u →
        ((match (u.takeWhile fun c => c != 'e' && c != 'E').dropWhile (· != '.') with
          | [] => isDigits ((u.takeWhile fun c => c != 'e' && c != 'E').takeWhile (· != '.'))
          | _ :: f => ((u.takeWhile fun c => c != 'e' && c != 'E').takeWhile (· != '.')).all Char.isDigit && isDigits f) &&
        (match u.dropWhile fun c => c != 'e' && c != 'E' with
          | [] => true
          | _ :: '-' :: x => isDigits x
          | _ :: '+' :: x => isDigits x
          | _ :: x => isDigits x)) = true → False := by
      intro u hu hh
      rw [← List.takeWhile_append_dropWhile (p := fun c => c != 'e' && c != 'E') (l := u)] at hu
      generalize hm : (u.takeWhile fun c => c != 'e' && c != 'E') = m at hu hh
      have hen : ∀ c cs, (u.dropWhile fun c => c != 'e' && c != 'E') = c :: cs → c ≠ '"' := by
        intro c cs he hc
        have := List.head_dropWhile_not (p := fun c => c != 'e' && c != 'E') (l := u) (by rw [he]; simp)
        simp only [he, List.head_cons] at this
        rw [hc] at this
        simp at this
      generalize he : (u.dropWhile fun c => c != 'e' && c != 'E') = e at hu hh
      rw [he] at hen
      rw [Bool.and_eq_true] at hh
      rcases List.mem_append.1 hu with hu | hu
      · have h1 := hh.1
        rw [← List.takeWhile_append_dropWhile (p := (· != '.')) (l := m)] at hu
        have hdn : ∀ c cs, m.dropWhile (· != '.') = c :: cs → c ≠ '"' := by
          intro c cs he hc
          have := List.head_dropWhile_not (p := (· != '.')) (l := m) (by rw [he]; simp)
          simp only [he, List.head_cons] at this
          rw [hc] at this
          simp at this
        generalize hw : m.takeWhile (· != '.') = w at hu h1
        generalize hf : m.dropWhile (· != '.') = f at hu h1 hdn
        cases f with
        | nil => simp only [List.append_nil] at hu; exact dig w h1 hu
        | cons c f =>
          simp only [Bool.and_eq_true] at h1
          rcases List.mem_append.1 hu with hu | hu
          · exact all w h1.1 hu
          · rcases List.mem_cons.1 hu with hu | hu
            · exact hdn c f rfl hu.symm
            · exact dig f h1.2 hu
      · have h2 := hh.2
        cases e with
        | nil => simp at hu
        | cons c e =>
          rcases List.mem_cons.1 hu with hu | hu
          · exact hen c e rfl hu.symm
          · split at h2
            · rename_i heq; simp at heq
            · rename_i heq
              simp only [List.cons.injEq] at heq
              rw [heq.2] at hu
              simp only [List.mem_cons] at hu
              rcases hu with hu | hu
              · exact absurd hu (by decide)
              · exact dig _ h2 hu
            · rename_i heq
              simp only [List.cons.injEq] at heq
              rw [heq.2] at hu
              simp only [List.mem_cons] at hu
              rcases hu with hu | hu
              · exact absurd hu (by decide)
              · exact dig _ h2 hu
            · rename_i heq
              simp only [List.cons.injEq] at heq
              rw [heq.2] at hu
              exact dig _ h2 hu
    unfold isNumber unsigned at h
    split at h
    · rename_i rest
      simp only [List.mem_cons] at hq
      rcases hq with hq | hq
      · exact absurd hq (by decide)
      · exact key rest hq h
    · exact key t hq h

/-- The same input, in another state. -/
def Like : Input → Input → Prop
  | .check _, .check _ => True
  | .number _, .number _ => True
  | .choice o _, .choice o' _ => o = o'
  | .line _, .line _ => True
  | .pages _, .pages _ => True
  | _, _ => False

theorem Like.refl (i : Input) : Like i i := by cases i <;> simp [Like]

theorem fresh_text {p : Param} {i : Input} (h : fresh p = some i) (ht : p.md.type = some .text) : ∃ t, i = .line t := by
  unfold fresh at h
  rw [text_type.2 ht] at h
  simp only [Option.map_eq_some_iff] at h
  obtain ⟨d, -, rfl⟩ := h
  exact ⟨_, rfl⟩

theorem convert_other {p : Param} (h : p.md.type ≠ some .text) (v : Text) : convertInput p v = v := by
  unfold convertInput
  rw [if_neg (fun e => h (text_type.1 e))]

theorem shown_id {q : Page} (h : ('\n' ∉ q.id ∧ '\r' ∉ q.id) ∧ ∀ t, q.color = some t ∨ q.text = some t → t ≠ [] ∧ '\n' ∉ t ∧ '\r' ∉ t) :
    q.shown = q := by
  have opt : ∀ x : Option Text, (∀ t, x = some t → t ≠ [] ∧ '\n' ∉ t ∧ '\r' ∉ t) → entered x = x := by
    intro x hx
    cases x with
    | none => rfl
    | some t =>
      obtain ⟨h1, h2, h3⟩ := hx t rfl
      simp only [entered, Option.getD_some, oneLine_id h2 h3]
      cases t with
      | nil => exact absurd rfl h1
      | cons c cs => rfl
  obtain ⟨⟨h1, h2⟩, h3⟩ := h
  unfold Page.shown
  rw [oneLine_id h1 h2, opt q.color fun t e => h3 t (Or.inl e), opt q.text fun t e => h3 t (Or.inr e)]

/-- A value which can be shown is read again as it was written. -/
theorem read_write {p : Param} {v : Val} (h : Shows p v) {i0 i : Input} (hf : fresh p = some i0) (hl : Like i i0) :
    ∃ i', write i v = some i' ∧ Like i' i0 ∧ Same (read p i') (some v) := by
  unfold Shows at h
  rw [hf] at h
  cases i0 <;> cases v <;> simp only at h <;> cases i <;> simp only [Like] at hl
  · -- check
    refine ⟨_, rfl, trivial, ?_⟩
    rcases h with rfl | rfl <;> rfl
  · -- number
    rename_i t t'
    obtain ⟨n1, n2⟩ := number_plain h
    have ht : p.md.type ≠ some .text := fun e => by obtain ⟨_, e'⟩ := fresh_text hf e; cases e'
    refine ⟨_, rfl, trivial, ?_⟩
    rw [single_eq, single_id n2]
    simp only [Input.put, h, if_true, read, Input.val, Option.map_some, if_neg n1, convert_other ht]
    rfl
  · -- choice
    subst hl
    have ht : p.md.type ≠ some .text := fun e => by obtain ⟨_, e'⟩ := fresh_text hf e; cases e'
    refine ⟨_, rfl, rfl, ?_⟩
    rw [single_eq]
    simp only [Input.put, if_pos h.2, read, Input.val, Option.map_some, if_neg (single_ne_nil h.1), convert_other ht, Same, requoted, single_idem]
  · -- line
    rename_i t t'
    obtain ⟨h1, h2, h3, h4⟩ := h
    have e : oneLine (single t) = single t :=
      oneLine_id (fun h => h2 ((single_mem (by decide) (by decide)).1 h)) (fun h => h3 ((single_mem (by decide) (by decide)).1 h))
    refine ⟨.line (single t), by rw [← e]; rfl, trivial, ?_⟩
    simp only [read, Input.val, Option.map_some, if_neg (single_ne_nil h1), Same, requoted]
    congr 2
    unfold convertInput
    split
    · rename_i ht
      rcases h4 (text_type.1 ht) with h4 | h4
      · split
        · exact single_idem _
        · rw [(requote h4).2, single_idem]
      · rw [if_pos h4, single_idem]
    · exact single_idem _
  · -- pages
    rename_i l l'
    refine ⟨_, rfl, trivial, ?_⟩
    have : l.map Page.shown = l := by
      conv => rhs; rw [← List.map_id l]
      exact List.map_congr_left fun q hq => shown_id (h q hq)
    rw [this]
    rfl

/-- The input shows the default. -/
def FreshOk (d : Text) : Input → Prop
  | .check b => b = (d == lit "True")
  | .number t => t = if isNumber d then d else []
  | .choice o s => s = if d ∈ o then some d else none
  | .line t => t = oneLine d
  | .pages l => l = []

theorem fresh_default {p : Param} {i : Input} {d : Text} (h : fresh p = some i) (hd : defaultValue p = some d) : FreshOk d i := by
  unfold fresh at h
  rw [hd] at h
  simp only [Option.map_some] at h
  split at h
  all_goals simp only [Option.some.injEq] at h
  all_goals rw [← h]
  any_goals rfl
  all_goals cases values p <;> rfl

/-- The default is read again. -/
theorem read_fresh {p : Param} (h : Stands p) {i : Input} (hf : fresh p = some i) : Same (read p i) (p.default.map Val.code) := by
  obtain ⟨d, hd, hv, h⟩ := h
  rw [hf] at h
  rw [hd]
  have e := fresh_default hf hv
  cases i <;> simp only [FreshOk] at h e <;> subst e
  · rcases h with rfl | rfl <;> rfl
  · have ht : p.md.type ≠ some .text := fun e => by obtain ⟨_, e'⟩ := fresh_text hf e; cases e'
    simp only [read, Input.val, Option.map_some, hv, Option.getD_some, convert_other ht]
    split <;> rfl
  · have ht : p.md.type ≠ some .text := fun e => by obtain ⟨_, e'⟩ := fresh_text hf e; cases e'
    rw [if_pos h.2]
    simp only [read, Input.val, Option.map_some, if_neg h.1, convert_other ht]
    rfl
  · obtain ⟨h1, h2, h3, h4⟩ := h
    rw [oneLine_id h2 h3]
    simp only [read, Input.val, Option.map_some, if_neg h1, Same, requoted]
    congr 2
    unfold convertInput
    split
    · rename_i ht
      rcases h4 (text_type.1 ht) with h4 | h4
      · split
        · rfl
        · rw [(requote h4).1, single_idem]
      · rw [if_pos h4]
    · rfl

end PySwitch.Properties
