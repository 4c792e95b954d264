import Verif.Spec.CallbackParams
import Verif.Lemmas.PropertiesNames
/-!
C177: the settings of callbacks in the display editor.
-/
namespace PySwitch.Props
open PySwitch.CallbackParams PySwitch.CallbackParams.Spec
open PySwitch.Properties (Text lit Ty Param intText parseInt defaultValue typeOf values)

namespace C177

theorem getArgument_eq (args : Args) (n : Text) : getArgument args n = (args.find? fun a => a.1 = n).map (·.2) := by
  unfold getArgument
  congr 2
  funext a
  by_cases h : a.1 = n <;> simp [h]

theorem passed_eq (d n : Text) (args : Args) : passed d n args = (getArgument args n).getD d := by
  rw [getArgument_eq, passed]
  cases args.find? fun a => decide (a.1 = n) <;> rfl

theorem get_filter_self (args : Args) (n : Text) : getArgument (args.filter fun a => a.1 != n) n = none := by
  induction args with
  | nil => rfl
  | cons a as ih =>
    by_cases h : a.1 = n
    · rw [List.filter_cons_of_neg (by simp [h])]; exact ih
    · rw [List.filter_cons_of_pos (by simp [h]), getArgument, List.find?_cons_of_neg (by simp [h])]
      exact ih

theorem get_filter_other (args : Args) {n m : Text} (hm : m ≠ n) : getArgument (args.filter fun a => a.1 != n) m = getArgument args m := by
  induction args with
  | nil => rfl
  | cons a as ih =>
    by_cases h : a.1 = n
    · have ha : a.1 ≠ m := fun e => hm (e ▸ h)
      rw [List.filter_cons_of_neg (by simp [h]), ih]
      simp [getArgument, ha]
    · rw [List.filter_cons_of_pos (by simp [h])]
      unfold getArgument at ih ⊢
      by_cases ha : a.1 = m
      · rw [List.find?_cons_of_pos (by simp [ha]), List.find?_cons_of_pos (by simp [ha])]
      · rw [List.find?_cons_of_neg (by simp [ha]), List.find?_cons_of_neg (by simp [ha])]; exact ih

theorem get_setFirst_self (args : Args) (n c : Text) (h : getArgument args n ≠ none) : getArgument (setFirst n c args) n = some c := by
  induction args with
  | nil => exact absurd rfl h
  | cons a as ih =>
    by_cases ha : a.1 = n
    · simp [setFirst, ha, getArgument]
    · rw [setFirst, if_neg ha]
      have hs : ∀ (l : Args), getArgument (a :: l) n = getArgument l n := fun l => by
        rw [getArgument, List.find?_cons_of_neg (by simp [ha]), getArgument]
      rw [hs] at h ⊢
      exact ih h

theorem get_setFirst_other (args : Args) {n m : Text} (c : Text) (hm : m ≠ n) : getArgument (setFirst n c args) m = getArgument args m := by
  induction args with
  | nil => rfl
  | cons a as ih =>
    by_cases ha : a.1 = n
    · have h1 : a.1 ≠ m := fun e => hm (e ▸ ha)
      have h2 : n ≠ m := fun e => hm e.symm
      simp [setFirst, ha, getArgument, h2]
    · rw [setFirst, if_neg ha]
      unfold getArgument at ih ⊢
      by_cases h1 : a.1 = m
      · rw [List.find?_cons_of_pos (by simp [h1]), List.find?_cons_of_pos (by simp [h1])]
      · rw [List.find?_cons_of_neg (by simp [h1]), List.find?_cons_of_neg (by simp [h1])]; exact ih

/-- The arguments with one for the parameter. -/
def withOne (n : Text) (args : Args) : Args := if getArgument args n = none then args ++ [(n, [])] else args

theorem withOne_self (n : Text) (args : Args) : getArgument (withOne n args) n ≠ none := by
  unfold withOne
  split
  · rename_i h
    simp only [getArgument, Option.map_eq_none_iff] at h
    simp [getArgument, List.find?_append, h]
  · assumption

theorem withOne_other {n m : Text} (args : Args) (hm : m ≠ n) : getArgument (withOne n args) m = getArgument args m := by
  unfold withOne
  split
  · have : ([(n, ([] : Text))] : Args).find? (fun a => a.1 == m) = none := by simp; exact fun e => hm e.symm
    rw [getArgument, List.find?_append, this, Option.or_none, getArgument]
  · rfl

theorem change_eq (p : Param) (i : Input) (args : Args) :
    change p i args = if some (unconvert (typeOf p) i) = defaultValue p then (withOne p.name args).filter (fun a => a.1 != p.name)
      else setFirst p.name (unconvert (typeOf p) i) (withOne p.name args) := rfl

theorem change_self (p : Param) (i : Input) (args : Args) :
    getArgument (change p i args) p.name = if some (unconvert (typeOf p) i) = defaultValue p then none else some (unconvert (typeOf p) i) := by
  rw [change_eq]
  split
  · exact get_filter_self _ _
  · exact get_setFirst_self _ _ _ (withOne_self _ _)

theorem change_other (p : Param) (i : Input) (args : Args) {m : Text} (hm : m ≠ p.name) :
    getArgument (change p i args) m = getArgument args m := by
  rw [change_eq]
  split
  · rw [get_filter_other _ hm, withOne_other _ hm]
  · rw [get_setFirst_other _ _ hm, withOne_other _ hm]

theorem default_eq {p : Param} {c : Char} {cs : Text} (h : p.md.default = none) (hd : p.default = some (c :: cs)) : defaultValue p = some (c :: cs) := by
  simp [defaultValue, h, hd]

theorem code_eq {p : Param} {i : Input} (hi : typeOf p ≠ some .int) (h : possible p i) : unconvert (typeOf p) i = wanted i := by
  unfold possible at h
  split at h
  · rename_i ht
    obtain ⟨on, rfl⟩ := h
    rw [ht]; rfl
  · rename_i ht
    obtain ⟨t, rfl, -⟩ := h
    rw [ht]; rfl
  · rename_i h1 h2
    obtain ⟨t, rfl⟩ := h
    cases hty : typeOf p with
    | none => rfl
    | some ty => cases ty <;> first | rfl | exact absurd hty hi

/-- One change. -/
theorem change_passed {p : Param} {i : Input} {c : Char} {cs : Text} (hm : p.md.default = none) (hd : p.default = some (c :: cs))
    (hi : typeOf p ≠ some .int) (h : possible p i) (args : Args) : passed (c :: cs) p.name (change p i args) = wanted i := by
  rw [passed_eq, change_self, code_eq hi h, default_eq hm hd]
  split
  · rename_i e; exact (Option.some.inj e).symm
  · rfl

theorem last_cons (n : Text) (e : Param × Input) (es : List (Param × Input)) :
    last n (e :: es) = (last n es).or (if e.1.name = n then some e.2 else none) := by
  simp only [last, List.reverse_cons, List.find?_append]
  cases h : es.reverse.find? fun e => decide (e.1.name = n) with
  | some x => rfl
  | none =>
    by_cases hn : e.1.name = n <;> simp [hn]

theorem shown_change {p : Param} {i : Input} {c : Char} {cs : Text} (hm : p.md.default = none) (hd : p.default = some (c :: cs))
    (hi : typeOf p ≠ some .int) (h : possible p i) {args : Args} (hw : wanted i ≠ [])
    (hp : passed (c :: cs) p.name args = wanted i) : shown p args = i := by
  have hc : current p args = wanted i := by
    unfold current
    rw [passed_eq] at hp
    cases hg : getArgument args p.name with
    | none => rw [hg] at hp; rw [default_eq hm hd]; exact hp
    | some x =>
      rw [hg] at hp
      have hx : x = wanted i := hp
      subst hx
      cases hwi : wanted i with
      | nil => exact absurd hwi hw
      | cons a as => rfl
  rw [shown, hc]
  unfold possible at h
  unfold convert
  split at h
  · rename_i ht
    obtain ⟨on, rfl⟩ := h
    rw [ht]
    show Input.check (wanted (.check on) == lit "True") = _
    have : ∀ on, (wanted (.check on) == lit "True") = on := by decide +kernel
    rw [this]
  · rename_i ht
    obtain ⟨t, rfl, hv⟩ := h
    rw [ht]
    exact if_pos hv
  · rename_i h1 h2
    obtain ⟨t, rfl⟩ := h
    split
    · rename_i e; exact absurd e hi
    · rename_i e; exact absurd e h1
    · rename_i e; exact absurd e h2
    · rfl

end C177

/-- C177, the code: after any history of inputs, the callback gets for each parameter what the user has entered last, and what it got before
if nothing has been entered. Missing: parameters with numbers (`C177_number_witness`). -/
theorem C177_code_partial (sig : List Param) (es : List (Param × Input)) (args : Args)
    (hn : ∀ p ∈ sig, ∀ q ∈ sig, p.name = q.name → p = q)
    (hd : ∀ p ∈ sig, p.md.default = none ∧ ∃ c cs, p.default = some (c :: cs))
    (he : ∀ e ∈ es, e.1 ∈ sig ∧ typeOf e.1 ≠ some .int ∧ possible e.1 e.2)
    (p : Param) (hp : p ∈ sig) (d : Text) (hpd : p.default = some d) :
    passed d p.name (changes args es) =
      match last p.name es with
      | some i => wanted i
      | none => passed d p.name args := by
  obtain ⟨hm, c, cs, hc⟩ := hd p hp
  obtain rfl : d = c :: cs := Option.some.inj (hpd.symm.trans hc)
  induction es generalizing args with
  | nil => rfl
  | cons e es ih =>
    obtain ⟨q, i⟩ := e
    obtain ⟨hq, hi, hpos⟩ := he (q, i) (by simp)
    rw [changes, ih _ (fun e h => he e (by simp [h])), C177.last_cons]
    cases hl : last p.name es with
    | some x => rfl
    | none =>
      by_cases hpq : q.name = p.name
      · obtain rfl := hn _ hq _ hp hpq
        simp only [hpq, if_true, Option.none_or]
        exact C177.change_passed hm hc hi hpos args
      · simp only [hpq, if_false, Option.none_or]
        rw [C177.passed_eq, C177.passed_eq, C177.change_other _ _ _ (fun e => hpq e.symm)]

/-- C177, the dialog: what has been entered last is what the dialog shows when it is opened again. Missing: numbers (`C177_number_witness`) and
empty inputs (`C177_empty_witness`). -/
theorem C177_shown_partial (sig : List Param) (es : List (Param × Input)) (args : Args)
    (hn : ∀ p ∈ sig, ∀ q ∈ sig, p.name = q.name → p = q)
    (hd : ∀ p ∈ sig, p.md.default = none ∧ ∃ c cs, p.default = some (c :: cs))
    (he : ∀ e ∈ es, e.1 ∈ sig ∧ typeOf e.1 ≠ some .int ∧ possible e.1 e.2)
    (p : Param) (hp : p ∈ sig) (i : Input) (hl : last p.name es = some i) (hw : wanted i ≠ []) :
    shown p (changes args es) = i := by
  obtain ⟨hm, c, cs, hc⟩ := hd p hp
  have hcode := C177_code_partial sig es args hn hd he p hp (c :: cs) hc
  rw [hl] at hcode
  have hmem : ∃ e ∈ es, e.1.name = p.name ∧ e.2 = i := by
    unfold last at hl
    cases hf : es.reverse.find? fun e => decide (e.1.name = p.name) with
    | none => rw [hf] at hl; cases hl
    | some e =>
      rw [hf] at hl
      exact ⟨e, List.mem_reverse.1 (List.mem_of_find?_eq_some hf), by simpa using List.find?_some hf, Option.some.inj hl⟩
  obtain ⟨e, hes, hne, rfl⟩ := hmem
  obtain ⟨hq, hi, hpos⟩ := he e hes
  obtain rfl := hn _ hq _ hp hne
  exact C177.shown_change hm hc hi hpos hw hcode

/-- Nothing but the parameter is touched: the other arguments and their order stay. -/
theorem C177_others (p : Param) (i : Input) (args : Args) :
    (change p i args).filter (fun a => a.1 != p.name) = args.filter (fun a => a.1 != p.name) := by
  have h1 : (C177.withOne p.name args).filter (fun a => a.1 != p.name) = args.filter (fun a => a.1 != p.name) := by
    unfold C177.withOne
    split
    · simp [List.filter_append]
    · rfl
  have h2 : ∀ (n c : Text) (l : Args), (setFirst n c l).filter (fun a => a.1 != n) = l.filter (fun a => a.1 != n) := by
    intro n c l
    induction l with
    | nil => rfl
    | cons a as ih =>
      by_cases ha : a.1 = n
      · rw [setFirst, if_pos ha, List.filter_cons_of_neg (by simp), List.filter_cons_of_neg (by simp [ha])]
      · rw [setFirst, if_neg ha, List.filter_cons_of_pos (by simp [ha]), List.filter_cons_of_pos (by simp [ha]), ih]
  rw [C177.change_eq]
  split
  · rw [List.filter_filter]; simp only [Bool.and_self]; exact h1
  · rw [h2, h1]

/-! ### Cases -/

/-- Parameters of the callbacks in `web/htdocs/definitions/callbacks.json` and `meta.json`. -/
def c177Name : Param := ⟨lit "show_name", some (lit "True"), {}, none⟩
/-- See above. -/
def c177Id : Param :=
  ⟨lit "show_rig_id", some (lit "False"), { type := some .select, values := some [lit "False", lit "True", lit "'rig'", lit "'bank'"] }, none⟩
/-- See above. -/
def c177Color : Param := ⟨lit "strobe_color", some (lit "Colors.WHITE"), { type := some .color }, none⟩
/-- See above. -/
def c177Speed : Param := ⟨lit "strobe_speed", some (lit "1000"), {}, none⟩
/-- See above. -/
def c177High : Param := ⟨lit "calibration_high", some (lit "8192 + 350"), {}, none⟩
/-- See above. -/
def c177Notes : Param := ⟨lit "note_names", some (lit "None"), {}, none⟩

example : ∀ e ∈ [(c177Name, Input.check false), (c177Id, .text (lit "'rig'")), (c177Color, .text (lit "(1, 2, 3)")), (c177Name, .check true)],
    e.1 ∈ [c177Name, c177Id, c177Color] ∧ typeOf e.1 ≠ some .int ∧ possible e.1 e.2 := by
  intro e he
  simp only [List.mem_cons, List.not_mem_nil, or_false] at he
  rcases he with rfl | rfl | rfl | rfl
  · exact ⟨by decide, by decide, ⟨false, rfl⟩⟩
  · exact ⟨by decide, by decide, ⟨_, rfl, by decide⟩⟩
  · exact ⟨by decide, by decide, ⟨_, rfl⟩⟩
  · exact ⟨by decide, by decide, ⟨true, rfl⟩⟩

example : changes [(lit "show_rig_id", lit "True")]
      [(c177Name, .check false), (c177Id, .text (lit "'rig'")), (c177Color, .text (lit "(1, 2, 3)")), (c177Name, .check true)] =
    [(lit "show_rig_id", lit "'rig'"), (lit "strobe_color", lit "(1, 2, 3)")] := by decide +kernel

/-- Numbers: whatever number is entered, the callback gets a text in quotes instead of a number, and the dialog shows an empty input afterwards.
This is also so for the default. -/
theorem C177_number_witness (p : Param) (ht : typeOf p = some .int) (n : Nat) (args : Args)
    (hd : ∀ d, defaultValue p = some d → d.head? ≠ some '"') :
    getArgument (change p (.text (intText (n : Int))) args) p.name = some (['"'] ++ intText (n : Int) ++ ['"']) ∧
    shown p (change p (.text (intText (n : Int))) args) = .text [] := by
  have hu : unconvert (typeOf p) (.text (intText (n : Int))) = ['"'] ++ intText (n : Int) ++ ['"'] := by
    rw [ht]
    show ['"'] ++ numberText (parseInt (intText (n : Int))) ++ ['"'] = _
    rw [Properties.parseInt_nat]; rfl
  have hg : getArgument (change p (.text (intText (n : Int))) args) p.name = some (['"'] ++ intText (n : Int) ++ ['"']) := by
    rw [C177.change_self, hu, if_neg]
    intro e
    exact hd _ e.symm rfl
  refine ⟨hg, ?_⟩
  have hc : current p (change p (.text (intText (n : Int))) args) = ['"'] ++ intText (n : Int) ++ ['"'] := by
    unfold current; rw [hg]; rfl
  rw [shown, hc]
  unfold convert
  rw [ht]
  rfl

example : typeOf c177Speed = some .int ∧ ∀ d, defaultValue c177Speed = some d → d.head? ≠ some '"' := by
  refine ⟨by decide +kernel, ?_⟩
  intro d h
  rw [show defaultValue c177Speed = some (lit "1000") from rfl] at h
  obtain rfl := Option.some.inj h
  decide

example : change c177Speed (.text (lit "900")) [] = [(lit "strobe_speed", lit "\"900\"")] ∧
    change c177Speed (.text (lit "1000")) [] = [(lit "strobe_speed", lit "\"1000\"")] := by decide +kernel

/-- The default of the calibration is shown as another number: 8192 instead of 8542. -/
theorem C177_sum_witness : shown c177High [] = .text (lit "8192") := by decide +kernel

/-- A text in an input for a number is stored as the text `NaN`. -/
theorem C177_text_witness (p : Param) (ht : typeOf p = some .int) (t : Text) (h : parseInt t = none) : unconvert (typeOf p) (.text t) = lit "\"NaN\"" := by
  rw [ht]
  show ['"'] ++ numberText (parseInt t) ++ ['"'] = _
  rw [h]; rfl

example : parseInt (lit "wide") = none ∧ typeOf c177High = some .int := by decide +kernel

/-- An empty input is stored as empty code, but the dialog shows the default. -/
theorem C177_empty_witness :
    possible c177Notes (.text []) ∧ change c177Notes (.text []) [] = [(lit "note_names", [])] ∧
      shown c177Notes (change c177Notes (.text []) []) = .text (lit "None") := by
  refine ⟨⟨_, rfl⟩, ?_⟩
  decide +kernel

end PySwitch.Props
