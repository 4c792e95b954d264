import Verif.Lemmas.PropertiesOld
import Verif.Lemmas.PropertiesRange

/-!
C137 – C140: the dialog with the properties of an action, and the list of the pages of a pager.
-/

namespace PySwitch.Props
open PySwitch.Properties PySwitch.Properties.Spec

/-! ### C137: editing an action without changes -/

/-- C137: the dialog opens for every action which it can show. When it is applied without changes, the action keeps its place (press or
hold), its name and its pager, and each parameter which is given or has its default in the dialog keeps its value (with other quotes at
most). Missing: values which the inputs cannot show, and parameters with another default in the dialog, see the witnesses below. -/
theorem C137_unchanged_partial {kind : Kind} {ps : List Param} {a : Action} (h : Editable kind ps a) (suggested : Text)
    (name : ∀ t, a.assign = some t → '\n' ∉ t ∧ '\r' ∉ t) :
    ∃ d, Dialog.edit kind ps suggested a = some d ∧ d.hold = a.hold ∧ d.assign = a.assign.getD [] ∧ d.proxyOf = a.pager ∧
      ∀ p ∈ ps, Known kind a p → Same (effective p d.arguments) (effective p (given a.args)) := by
  obtain ⟨d, h1, -, -, h2, h3, h4, h5⟩ := edit_spec h suggested
  refine ⟨d, h1, h2, ?_, h4, h5⟩
  rw [h3]
  cases e : a.assign with
  | none => rfl
  | some t => exact oneLine_id (name t e).1 (name t e).2

/-- C137: the result only has arguments for parameters of the action, each at most once, and none which has the default anyway. -/
theorem C137_no_defaults {kind : Kind} {ps : List Param} {a : Action} (h : Editable kind ps a) (suggested : Text) :
    ∃ d, Dialog.edit kind ps suggested a = some d ∧ (d.arguments.map Prod.fst).Nodup ∧
      ∀ x ∈ d.arguments, ∃ p ∈ ps, p.name = x.1 ∧ x.2 ≠ p.default.map Val.code := by
  obtain ⟨d, h1, h2, -⟩ := edit_spec h suggested
  refine ⟨d, h1, ?_, ?_⟩
  · unfold Dialog.arguments
    rw [h2, List.map_map]
    have : (Prod.fst ∘ fun p : Param => (p.name, d.value p)) = Param.name := rfl
    rw [this]
    exact (List.filter_sublist.map Param.name).nodup h.params
  · intro x hx
    unfold Dialog.arguments at hx
    rw [h2] at hx
    simp only [List.mem_map, List.mem_filter, decide_eq_true_eq] at hx
    obtain ⟨p, ⟨hp, hv⟩, rfl⟩ := hx
    exact ⟨p, hp, rfl, hv⟩

namespace C137

/-- The parameter for the pages. -/
def pages : Param := ⟨lit "pages", none, { type := some .pages, default := some (lit "[]") }, none⟩
/-- The parameter for the page. -/
def selectPage : Param := ⟨lit "select_page", some (lit "None"), { type := some .selectPage }, none⟩
/-- The parameter for the use of LEDs. -/
def useLeds : Param := ⟨lit "use_leds", some (lit "True"), {}, none⟩
/-- The parameter for the id. -/
def ident : Param := ⟨lit "id", some (lit "None"), {}, none⟩
/-- The parameter for the page of a proxy. -/
def pageId : Param := ⟨lit "page_id", none, { type := some .selectPage }, none⟩
/-- A parameter with a text. -/
def text : Param := ⟨lit "text", some (lit "\"PlayStp\""), { type := some .text, unconverted := [lit "None"] }, none⟩
/-- A parameter with a number. -/
def slot : Param := ⟨lit "slot", none, { type := some .int, range := some ⟨0, 3, none⟩ }, none⟩
/-- The parameter of the encoder action which has another default in the dialog. -/
def resetMapping : Param :=
  ⟨lit "preview_reset_mapping", some (lit "None"), { type := some .select, default := some (lit "KemperMappings.RIG_ID()") },
    some [lit "None", lit "KemperMappings.RIG_ID()"]⟩

/-- A pager with two pages. -/
def pager : Action := { assign := some (lit "_pager"), args :=
  [(lit "pages", .pages [⟨lit "1", some (lit "Colors.RED"), some (lit "'One'")⟩, ⟨lit "2", none, none⟩]), (lit "select_page", .code (lit "2")),
    (lit "id", .code (lit "7"))] }

theorem pager_editable : Editable .pager [pages, selectPage, useLeds, ident] pager where
  params := by unfold Distinct; decide
  inputs := by
    intro p hp
    simp only [List.mem_cons, List.not_mem_nil, or_false] at hp
    rcases hp with rfl | rfl | rfl | rfl <;> exact ⟨_, rfl⟩
  pages := by
    refine ⟨fun p hp e => ?_, fun _ => ⟨C137.pages, rfl, by decide⟩⟩
    simp only [List.mem_cons, List.not_mem_nil, or_false] at hp
    rcases hp with rfl | rfl | rfl | rfl <;> revert e <;> decide
  args := by decide
  shown := by
    intro x hx
    simp only [pager, List.mem_cons, List.not_mem_nil, or_false] at hx
    rcases hx with rfl | rfl | rfl
    · refine ⟨C137.pages, by simp, rfl, fun _ => ?_, fun e => absurd e (by decide)⟩
      show ∀ q ∈ _, _
      intro q hq
      simp only [List.mem_cons, List.not_mem_nil, or_false] at hq
      rcases hq with rfl | rfl
      · refine ⟨by decide, ?_⟩
        rintro t (e | e) <;> simp only [Option.some.injEq] at e <;> subst e <;> decide
      · refine ⟨by decide, ?_⟩
        rintro t (e | e) <;> cases e
    · exact ⟨selectPage, by simp, rfl, fun e => absurd rfl e, fun _ => ⟨lit "2", rfl, by decide, by decide, by decide⟩⟩
    · refine ⟨ident, by simp, rfl, fun _ => ?_, fun e => absurd e (by decide)⟩
      show lit "7" ≠ [] ∧ '\n' ∉ lit "7" ∧ '\r' ∉ lit "7" ∧ _
      exact ⟨by decide, by decide, by decide, fun e => absurd e (by decide)⟩
  order := by
    intro _ pre post v e
    have hl := congrArg (fun l => l.map Prod.fst) e
    simp only [List.map_append, List.map_cons] at hl
    match pre, hl with
    | [], hl =>
      simp only [pager, List.map_cons, List.map_nil, List.nil_append, List.cons.injEq] at hl
      exact absurd hl.1 (by decide)
    | [_], hl =>
      simp only [pager, List.map_cons, List.map_nil, List.cons_append, List.nil_append, List.cons.injEq] at hl
      rw [← hl.2.2]
      decide
    | [_, _], hl =>
      simp only [pager, List.map_cons, List.map_nil, List.cons_append, List.nil_append, List.cons.injEq] at hl
      exact absurd hl.2.2.1 (by decide)
    | [_, _, _], hl => simp [pager] at hl
    | _ :: _ :: _ :: _ :: _, hl => simp [pager] at hl
  proxy := by intro _ e; cases e
  plain := by intro _; rfl

/-- The pager is shown with the page chosen, and the id is still there. -/
example : (Dialog.edit .pager [pages, selectPage, useLeds, ident] (lit "_pager2") pager).map (fun d => (d.assign, d.arguments)) =
    some (lit "_pager", (given pager.args)) := by decide +kernel

example : Known .pager pager useLeds := Or.inr (Or.inl ⟨_, rfl, rfl, Or.inl rfl⟩)

/-- A text gets single quotes. -/
example : (Dialog.edit .plain [text, slot] [] { hold := true, args := [(lit "slot", .code (lit "3"))] }).map (fun d => (d.hold, d.arguments)) =
    some (true, [(lit "text", some (.code (lit "'PlayStp'"))), (lit "slot", some (.code (lit "3")))]) := by decide +kernel

end C137

open C137

/-- Against C137: a parameter with another default in the dialog is added when the dialog is applied without changes (the mapping which resets
the preview of an encoder). -/
theorem C137_added_witness :
    Editable .plain [resetMapping] {} ∧ effective resetMapping (given []) = some (.code (lit "None")) ∧
    (Dialog.edit .plain [resetMapping] [] {}).map Dialog.arguments =
      some [(lit "preview_reset_mapping", some (.code (lit "KemperMappings.RIG_ID()")))] := by
  refine ⟨⟨by unfold Distinct; decide, ?_, ⟨?_, by intro e; cases e⟩, by decide, by simp, by simp, by simp, by simp⟩, by decide +kernel, by decide +kernel⟩
  · intro p hp
    simp only [List.mem_singleton] at hp
    subst hp
    exact ⟨_, rfl⟩
  · intro p hp e
    simp [pageParam] at e

/-- Against C137: a value which is not among the options of a selection is lost: a required argument is missing afterwards, and an optional
one has no value (null). -/
theorem C137_unlisted_witness :
    (Dialog.edit .plain [slot] [] { args := [(lit "slot", .code (lit "my_slot"))] }).map Dialog.arguments = some [] ∧
    (Dialog.edit .plain [resetMapping] [] { args := [(lit "preview_reset_mapping", .code (lit "my_mapping"))] }).map Dialog.arguments =
      some [(lit "preview_reset_mapping", none)] := by
  decide +kernel

/-- Against C137: the page which a pager selects is lost when it comes before the pages in the source code. -/
theorem C137_order_witness :
    (Dialog.edit .pager [pages, selectPage] [] { args := [(lit "select_page", .code (lit "1")), (lit "pages", .pages [⟨lit "1", none, none⟩])] }).map
      Dialog.arguments = some [(lit "pages", some (.pages [⟨lit "1", none, none⟩]))] := by
  decide +kernel

/-- Against C137: the page which a pager selects is lost when its id has double quotes: the argument has no value (null). -/
theorem C137_quoted_page_witness :
    (Dialog.edit .pager [pages, selectPage] [] { args := [(lit "pages", .pages [⟨lit "\"A\"", none, none⟩]), (lit "select_page", .code (lit "\"A\""))] }).map
      Dialog.arguments ≠ some [(lit "pages", some (.pages [⟨lit "\"A\"", none, none⟩])), (lit "select_page", some (.code (lit "\"A\"")))] ∧
    (Dialog.edit .pager [pages, selectPage] [] { args := [(lit "pages", .pages [⟨lit "\"A\"", none, none⟩]), (lit "select_page", .code (lit "\"A\""))] }).map
      (fun d => effective selectPage d.arguments) = some (some (.code (lit "None"))) := by
  decide +kernel

/-- Against C137: quotes inside a text are lost. -/
theorem C137_quotes_witness :
    (Dialog.edit .plain [text] [] { args := [(lit "text", .code (lit "\"It's\""))] }).map Dialog.arguments =
      some [(lit "text", some (.code (lit "'Its'")))] := by
  decide +kernel

/-- Against C137: the quotes of a value which is no text are replaced even where this breaks the source code. -/
theorem C137_broken_witness :
    (Dialog.edit .plain [ident] [] { args := [(lit "id", .code (lit "\"It's\""))] }).map Dialog.arguments =
      some [(lit "id", some (.code (lit "'It's'")))] := by
  decide +kernel

/-- Against C137: an argument which is no parameter is an exception, and the dialog does not show the arguments after it. -/
theorem C137_unknown_witness : (Dialog.edit .plain [ident] [] { args := [(lit "other", .code (lit "1"))] }).isNone := by
  decide +kernel

/-! ### C138: suggested names -/

/-- C137: a parameter for whole numbers of a range shows each of them, whether it is a selection or (for a large range) a number input. -/
theorem C137_range {p : Param} {r : Range} (type : typeOf p = some .int) (named : p.md.values = none) (listed : p.listed = none)
    (range : p.md.range = some r) (default : (defaultValue p).isSome) (v : Int) (low : r.min ≤ v) (high : v ≤ r.max) :
    Shows p (.code (intText v)) := by
  obtain ⟨d, hd⟩ := Option.isSome_iff_exists.1 default
  have hv : values p = rangeValues r := by simp [values, named, listed, range]
  unfold Shows
  cases hr : rangeValues r with
  | none =>
    have : fresh p = some (.number (if isNumber d then d else [])) := by simp [fresh, type, hd, hv, hr, Input.put]
    rw [this]
    exact isNumber_intText v
  | some l =>
    have : fresh p = some (.choice (l.map optionValue) (if d ∈ l.map optionValue then some d else none)) := by
      simp only [fresh, type, hd, hv, hr, Input.put, Option.map_some]
    rw [this]
    obtain ⟨h1, h2, h3⟩ := intText_quotes v
    refine ⟨h1, ?_⟩
    rw [h3]
    exact List.mem_map.2 ⟨_, mem_range hr v low high, h2⟩

/-- C137: and a selection offers nothing but these numbers and the additional values of the range. -/
theorem C137_range_only {p : Param} {r : Range} (type : typeOf p = some .int) (named : p.md.values = none) (listed : p.listed = none)
    (range : p.md.range = some r) {options : List Text} {selected : Option Text} (h : fresh p = some (.choice options selected)) (t : Text)
    (ht : t ∈ options) : (∃ x ∈ r.additional.getD [], t = optionValue x) ∨ ∃ v, r.min ≤ v ∧ v ≤ r.max ∧ t = intText v := by
  have hv : values p = rangeValues r := by simp [values, named, listed, range]
  cases hd : defaultValue p with
  | none => simp [fresh, type, hd] at h
  | some d =>
    cases hr : rangeValues r with
    | none => simp [fresh, type, hd, hv, hr, Input.put] at h
    | some l =>
      simp only [fresh, type, hd, hv, hr, Input.put, Option.map_some, Option.some.injEq, Input.choice.injEq] at h
      rw [← h.1] at ht
      obtain ⟨x, hx, rfl⟩ := List.mem_map.1 ht
      rcases of_mem_range hr x hx with hx | ⟨v, h1, h2, rfl⟩
      · exact .inl ⟨x, hx, rfl⟩
      · exact .inr ⟨v, h1, h2, (intText_quotes v).2.1⟩

/-- A slot is one of 0 to 3. -/
example : typeOf slot = some .int ∧ slot.md.values = none ∧ slot.listed = none ∧ (defaultValue slot).isSome ∧
    fresh slot = some (.choice [lit "0", lit "1", lit "2", lit "3"] (some (lit "0"))) := by decide +kernel

/-- C138: the name which is suggested for a new pager or encoder button is not used yet, whatever names are. -/
theorem C138_assign (stem : Text) (used : List Text) : nextAssign stem used ∉ used := next_assign_free stem used

/-- C138: it is the stem itself if this is free, and otherwise the stem with a number. -/
theorem C138_assign_form (stem : Text) (used : List Text) :
    (stem ∉ used → nextAssign stem used = stem) ∧
    (stem ∈ used → ∃ n : Nat, 2 ≤ n ∧ nextAssign stem used = stem ++ intText n ∧ ∀ k : Nat, 2 ≤ k → k < n → stem ++ intText k ∈ used) := by
  refine ⟨fun h => by simp [nextAssign, h], fun h => ?_⟩
  simp only [nextAssign, if_pos h]
  generalize used.length = fuel
  have gen : ∀ fuel cnt, ∃ n : Nat, cnt ≤ n ∧ freeFrom stem used fuel cnt = stem ++ intText n ∧ ∀ k : Nat, cnt ≤ k → k < n → stem ++ intText k ∈ used := by
    intro fuel
    induction fuel with
    | zero => exact fun cnt => ⟨cnt, Nat.le_refl _, rfl, fun k a b => by omega⟩
    | succ fuel ih =>
      intro cnt
      simp only [freeFrom]
      split
      · rename_i hm
        obtain ⟨n, h1, h2, h3⟩ := ih (cnt + 1)
        refine ⟨n, by omega, h2, fun k a b => ?_⟩
        by_cases e : k = cnt
        · rw [e]; exact hm
        · exact h3 k (by omega) b
      · exact ⟨cnt, Nat.le_refl _, rfl, fun k a b => by omega⟩
  exact gen fuel 2

/-- C138: the id of a new page is that of no other page, whatever the ids of the pages are. -/
theorem C138_page (pages : List Page) : ∀ p ∈ pages, p.id ≠ nextPageId pages := next_page_free pages

example : nextAssign (lit "_pager") [lit "_pager", lit "_pager3", lit "_pager2"] = lit "_pager4" := by decide +kernel
example : nextPageId [⟨lit "9", none, none⟩, ⟨lit "x", none, none⟩, ⟨lit "10", none, none⟩] = lit "11" := by decide +kernel

/-! ### C139: the list of pages -/

namespace C139

/-- What a user can do with the list of pages. -/
inductive Op where
  | add
  | remove (i : Nat)
  | rename (i : Nat) (id : Text)
deriving DecidableEq, Repr

/-- The list of the dialog. -/
def run : List PageRow → List Op → List PageRow
  | rows, [] => rows
  | rows, .add :: ops => run (addPage rows) ops
  | rows, .remove i :: ops => run (removePage rows i) ops
  | rows, .rename i id :: ops => run (renamePage rows i id) ops

/-- What is expected: a new page with a new id at the end, one page less, or another id. -/
inductive Expected : List Page → List Op → List Page → Prop
  | done {l} : Expected l [] l
  | add {l ops l'} (id : Text) (h : ∀ p ∈ l, p.id ≠ id) : Expected (l ++ [⟨id, none, none⟩]) ops l' → Expected l (.add :: ops) l'
  | remove {l ops l' i} : Expected (l.eraseIdx i) ops l' → Expected l (.remove i :: ops) l'
  | rename {l ops l' i id} : Expected (l.modify i fun p => ⟨id, p.color, p.text⟩) ops l' → Expected l (.rename i id :: ops) l'

end C139

open C139

theorem C139.digits_line (n : Nat) : oneLine (intText (n : Int)) = intText (n : Int) := by
  rw [intText_nat]
  have hd : ∀ c ∈ Nat.toDigits 10 n, c.isDigit = true := fun c hc => Nat.isDigit_of_mem_toDigits (by decide) (by decide) hc
  exact oneLine_id (fun h => absurd (hd _ h) (by decide)) (fun h => absurd (hd _ h) (by decide))

theorem C139.next_line (l : List Page) : oneLine (nextPageId l) = nextPageId l := by
  rw [nextPageId_eq]
  generalize l.foldl higher (-1) = m
  split
  · decide
  · rename_i hm
    obtain ⟨k, hk⟩ := Int.eq_ofNat_of_zero_le (Int.not_lt.1 hm)
    have : m + 1 = ((k + 1 : Nat) : Int) := by omega
    rw [this]
    exact digits_line (k + 1)

/-- Pages as they are shown. -/
def C139.Plain (l : List Page) : Prop := (∀ p ∈ l, p.shown = p) ∧ (l.map Page.id).Nodup

theorem C139.shown_shown (l : List Page) (h : Plain l) : setPages l = l.map fun p => ⟨p, p.id⟩ := by
  unfold setPages
  exact List.map_congr_left fun p hp => by rw [h.1 p hp]

theorem C139.filter_erase (l : List Page) (hn : (l.map Page.id).Nodup) (i : Nat) (hi : i < l.length) :
    (l.filter fun p => p.id ≠ l[i].id) = l.eraseIdx i := by
  induction l generalizing i with
  | nil => simp at hi
  | cons q l ih =>
    simp only [List.map_cons, List.nodup_cons] at hn
    cases i with
    | zero =>
      simp only [List.getElem_cons_zero, List.eraseIdx_cons_zero]
      rw [List.filter_cons, if_neg (by simp)]
      rw [List.filter_eq_self]
      intro p hp
      simp only [ne_eq, decide_eq_true_eq]
      exact fun e => hn.1 (by rw [← e]; exact List.mem_map_of_mem hp)
    | succ i =>
      simp only [List.length_cons, Nat.add_lt_add_iff_right] at hi
      simp only [List.getElem_cons_succ, List.eraseIdx_cons_succ]
      have : q.id ≠ l[i].id := fun e => hn.1 (by rw [e]; exact List.mem_map_of_mem (List.getElem_mem hi))
      rw [List.filter_cons, if_pos (by simpa using this), ih hn.2 i hi]

theorem C139.run_spec (ops : List Op) (h : ∀ i id, Op.rename i id ∉ ops) (l : List Page) (hl : Plain l) :
    Expected l ops ((run (setPages l) ops).map PageRow.page) := by
  have hpages : ∀ l : List Page, Plain l → (setPages l).map PageRow.page = l := by
    intro l hl
    rw [shown_shown l hl, List.map_map]
    exact List.map_id l
  induction ops generalizing l with
  | nil =>
    rw [run, hpages l hl]
    exact .done
  | cons op ops ih =>
    have hr : ∀ i id, Op.rename i id ∉ ops := fun i id hm => h i id (by simp [hm])
    cases op with
    | rename i id => exact absurd (by simp) (h i id)
    | add =>
      have hnew : Page.shown ⟨nextPageId l, some [], some []⟩ = ⟨nextPageId l, none, none⟩ := by
        unfold Page.shown
        rw [next_line]
        rfl
      have hpl : Plain (l ++ [⟨nextPageId l, none, none⟩]) := by
        constructor
        · intro p hp
          rcases List.mem_append.1 hp with hp | hp
          · exact hl.1 p hp
          · rw [List.mem_singleton.1 hp]
            unfold Page.shown
            rw [next_line]
            rfl
        · rw [List.map_append, List.nodup_append]
          refine ⟨hl.2, by simp, ?_⟩
          intro a ha b hb
          simp only [List.map_cons, List.map_nil, List.mem_singleton] at hb
          rw [List.mem_map] at ha
          obtain ⟨p, hp, rfl⟩ := ha
          rw [hb]
          exact next_page_free l p hp
      have hset : addPage (setPages l) = setPages (l ++ [⟨nextPageId l, none, none⟩]) := by
        unfold addPage
        simp only [hpages l hl]
        simp only [setPages, List.map_append, List.map_cons, List.map_nil, hnew]
        have : Page.shown ⟨nextPageId l, none, none⟩ = ⟨nextPageId l, none, none⟩ := by
          unfold Page.shown
          rw [next_line]
          rfl
        rw [this]
      rw [run, hset]
      exact .add _ (next_page_free l) (ih hr _ hpl)
    | remove i =>
      have hpl : Plain (l.eraseIdx i) :=
        ⟨fun p hp => hl.1 p (List.mem_of_mem_eraseIdx hp), ((List.eraseIdx_sublist l i).map Page.id).nodup hl.2⟩
      have hset : removePage (setPages l) i = setPages (l.eraseIdx i) := by
        unfold removePage
        by_cases hi : i < l.length
        · have : (setPages l)[i]? = some ⟨l[i], l[i].id⟩ := by
            rw [shown_shown l hl, List.getElem?_map, List.getElem?_eq_getElem hi]
            rfl
          rw [this]
          simp only [hpages l hl]
          rw [filter_erase l hl.2 i hi]
        · have hi' : l.length ≤ i := Nat.le_of_not_lt hi
          have : (setPages l)[i]? = none := by
            rw [List.getElem?_eq_none]
            simpa [setPages] using hi'
          rw [this, List.eraseIdx_of_length_le hi']
      rw [run, hset]
      exact .remove (ih hr _ hpl)

/-- C139: whatever is done with the list of the pages by its buttons (without renaming a page), a new page has a new id and is the last one,
and the button for removal removes just its own page. Missing: pages which have been renamed, see the witness below; and pages with the
same id, which are all removed at once. -/
theorem C139_buttons_partial (l : List Page) (distinct : (l.map Page.id).Nodup) (shown : ∀ p ∈ l, p.shown = p) (ops : List Op)
    (h : ∀ i id, Op.rename i id ∉ ops) : Expected l ops ((run (setPages l) ops).map PageRow.page) :=
  C139.run_spec ops h l ⟨shown, distinct⟩

example : ([⟨lit "1", none, none⟩, ⟨lit "2", some (lit "Colors.RED"), none⟩] : List Page).map Page.shown =
    [⟨lit "1", none, none⟩, ⟨lit "2", some (lit "Colors.RED"), none⟩] := by decide
example : (run (setPages [⟨lit "1", none, none⟩, ⟨lit "2", none, none⟩]) [.add, .remove 0, .add]).map (fun r => r.page.id) =
    [lit "2", lit "3", lit "4"] := by decide +kernel

/-- Against C139: the button of a page which has been renamed removes nothing, or another page which now has its old id. -/
theorem C139_renamed_witness :
    (run (setPages [⟨lit "1", none, none⟩, ⟨lit "2", none, none⟩]) [.rename 0 (lit "9"), .remove 0]).map (fun r => r.page.id) =
      [lit "9", lit "2"] ∧
    (run (setPages [⟨lit "1", none, none⟩, ⟨lit "2", none, none⟩]) [.rename 0 (lit "9"), .rename 1 (lit "1"), .remove 0]).map (fun r => r.page.id) =
      [lit "9"] := by
  decide +kernel

/-- Against C139: pages with the same id are removed together. -/
theorem C139_same_id_witness :
    (run (setPages [⟨lit "1", none, some (lit "'A'")⟩, ⟨lit "1", none, some (lit "'B'")⟩]) [.remove 0]).map PageRow.page = [] := by
  decide +kernel

/-! ### C140: another action is selected -/

/-- C140: when another action is selected in the dialog, a parameter gets the value which the parameter of the same name had before, if this
was not its default and can be shown, except for texts. -/
theorem C140_taken_over {kind : Kind} {ps : List Param} {old d : Dialog} {suggested : Text} (distinct : Distinct ps)
    (h : Dialog.show kind ps (some old) suggested = some d) {p q : Param} {v : Val} (hp : p ∈ ps) (page : some p.name ≠ pageParam kind)
    (text : p.md.type ≠ some .text) (before : old.param p.name = some q) (value : old.value q = some v)
    (changed : some v ≠ (defaultValue q).map Val.code) (shows : Shows p v) : Same (d.value p) (some v) := by
  obtain ⟨h1, -⟩ := show_inputs distinct h
  have h1 := h1 p hp page
  cases hi : fresh p with
  | none => unfold Shows at shows; rw [hi] at shows; exact absurd shows (by simp)
  | some i =>
    obtain ⟨i', hw, -, hs⟩ := read_write shows hi (Like.refl i)
    rw [inputFor_taken text before value changed hi, hw] at h1
    rw [Dialog.value, h1]
    exact hs

/-- C140: all other parameters (texts, and those which are new or had their default before) are as if the dialog had just been opened, with
their own defaults. The choice between press and hold is kept, and the name is that which is suggested. -/
theorem C140_others {kind : Kind} {ps : List Param} {old d : Dialog} {suggested : Text} (distinct : Distinct ps)
    (h : Dialog.show kind ps (some old) suggested = some d) :
    d.hold = old.hold ∧ d.assign = suggested ∧
    ∀ p ∈ ps, some p.name ≠ pageParam kind →
      (p.md.type = some .text ∨ ∀ q, old.param p.name = some q → ∀ v, old.value q = some v → some v = (defaultValue q).map Val.code) →
      d.inputs p.name = fresh p ∧ (Stands p → Same (d.value p) (p.default.map Val.code)) := by
  obtain ⟨h1, h2, h3⟩ := show_inputs distinct h
  refine ⟨h2, h3, fun p hp page hc => ?_⟩
  have hf : inputFor (some old) p = fresh p := inputFor_fresh (hc.imp (fun a => a) fun b o e q hq v hv => by cases e; exact b q hq v hv)
  have h4 := (h1 p hp page).trans hf
  refine ⟨h4, fun hs => ?_⟩
  rw [Dialog.value, h4]
  cases hi : fresh p with
  | none => obtain ⟨_, _, _, hx⟩ := hs; rw [hi] at hx; exact absurd hx (by simp)
  | some i => exact read_fresh hs hi

/-- The pager of C137 is replaced by an action with an id and a text: the id is taken over. -/
example : (((Dialog.edit .pager [pages, selectPage, useLeds, ident] (lit "_pager2") { pager with hold := true }).bind fun old =>
    Dialog.show .plain [ident, text, useLeds] (some old) []).map fun d => (d.hold, d.arguments)) =
    some (true, [(lit "id", some (.code (lit "7"))), (lit "text", some (.code (lit "'PlayStp'")))]) := by decide +kernel

/-- Against C140 in general: a value which is not among the options of the new selection leaves it empty instead of its default. (No two actions
of the editor have such parameters with the same name at present.) -/
theorem C140_unlisted_witness :
    (((Dialog.edit .plain [⟨lit "slot", none, { type := some .any, default := some (lit "0") }, none⟩] [] { args := [(lit "slot", .code (lit "9"))] }).bind
      fun old => Dialog.show .plain [slot] (some old) []).map fun d => d.value slot) = some none := by decide +kernel

end PySwitch.Props
