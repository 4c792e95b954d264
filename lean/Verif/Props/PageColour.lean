import Verif.Spec.PageColour
/-! C198: the colours of the marks of pages. -/

namespace PySwitch.Props
open PySwitch PySwitch.PageColour PySwitch.Spec.PageColour
open PySwitch.Properties (Text lit)
open PySwitch.Colours (resolveColor)
open PySwitch.Colours.Spec (Colour named)

namespace C198

theorem mem_actionsNamed (inputs : List (Option Input)) (name : Text) (a : Act) :
    a ∈ actionsNamed inputs name ↔ a.name = name ∧ ∃ i, some i ∈ inputs ∧ a ∈ i.actions ++ i.hold := by
  unfold actionsNamed
  rw [List.mem_flatMap]
  constructor
  · rintro ⟨x, hx, h⟩
    cases x with
    | none => simp at h
    | some i =>
      rw [List.mem_filter] at h
      exact ⟨by simpa using h.2, i, hx, h.1⟩
  · rintro ⟨h1, i, hi, h2⟩
    exact ⟨some i, hi, List.mem_filter.mpr ⟨h2, by simpa using h1⟩⟩

theorem pager_of (inputs : List (Option Input)) (var : Text) (pages : List Page) (hp : IsPager inputs var pages) (h1 : OneValue inputs var) :
    getPagerAction inputs var = some ⟨lit "PagerAction", some var, some pages⟩ := by
  obtain ⟨i, hi, ha⟩ := hp
  unfold getPagerAction
  cases hf : (actionsNamed inputs (lit "PagerAction")).find? fun a => a.assign == some var with
  | none =>
    have := List.find?_eq_none.mp hf _ ((mem_actionsNamed inputs _ _).mpr ⟨rfl, i, hi, ha⟩)
    simp at this
  | some b =>
    obtain ⟨_, j, hj, hb⟩ := (mem_actionsNamed inputs _ b).mp (List.mem_of_find?_eq_some hf)
    have hs : b.assign = some var := by have := List.find?_some hf; simpa using this
    rw [h1 j i hj hi b hb _ ha hs rfl]

theorem search_found (page : Text) (code : Text) (hc : code ≠ []) : ∀ ps : List Page, (ps.map (·.id)).Nodup → ∀ p ∈ ps, p.id = some page → p.color = some code →
    searchPages page ps = some (resolveColor code)
  | [], _, p, hp, _, _ => by simp at hp
  | q :: ps, hn, p, hp, hid, hcol => by
    rw [List.map_cons, List.nodup_cons] at hn
    rcases List.mem_cons.mp hp with rfl | hm
    · unfold searchPages
      rw [hcol]
      cases code with
      | nil => exact absurd rfl hc
      | cons c cs => simp [hid]
    · have hq : q.id ≠ some page := fun e => hn.1 (List.mem_map.mpr ⟨p, hm, hid.trans e.symm⟩)
      have ih := search_found page code hc ps hn.2 p hm hid hcol
      unfold searchPages
      split
      · rw [if_neg (by simpa using hq), ih]
      · exact ih

theorem search_none (page : Text) : ∀ ps : List Page, (∀ p ∈ ps, p.id = some page → p.color = none) → searchPages page ps = none
  | [], _ => rfl
  | q :: ps, h => by
    have ih := search_none page ps fun p hp => h p (List.mem_cons_of_mem _ hp)
    unfold searchPages
    split
    · rename_i c cs hcol
      rw [if_neg ?_, ih]
      intro e
      have := h q (List.mem_cons_self ..) (by simpa using e)
      rw [this] at hcol
      cases hcol
    · exact ih

theorem resolve_named : ∀ x ∈ named, resolveColor (lit ("Colors." ++ x.1)) = x.2.tuple (0, 0) (1, 0) (1, 0) ∧ lit ("Colors." ++ x.1) ≠ [] := by decide +kernel

theorem resolve_means (code : Text) (c : Colour) (h : Means code c) : code ≠ [] ∧ ∃ p q r, resolveColor code = c.tuple p q r := by
  rcases h with ⟨name, hn, rfl⟩ | ⟨p, q, r, rfl⟩
  · have := resolve_named (name, c) hn
    exact ⟨this.2, _, _, _, this.1⟩
  · refine ⟨by simp [Colour.tuple], p, q, r, ?_⟩
    simp [resolveColor, Colour.tuple, lit, List.isPrefixOf]

end C198

/-- C198: the mark of an action on a page has the colour of this page in the pager, wherever the pager is assigned. Missing: ids which are written in another way
(`C198_quotes_witness`), colours in variables (`C198_variable_witness`). -/
theorem C198_colour_partial (s : PageIcons.State) (inputs : List (Option Input)) (pager : Text) (pages : List Page) (hp : IsPager inputs pager pages) (h1 : OneValue inputs pager)
    (hn : (pages.map (·.id)).Nodup) (p : Page) (hm : p ∈ pages) (page code : Text) (hid : p.id = some page) (hc : p.color = some code) (c : Colour) (hcol : Means code c) :
    ∃ css, mark s inputs pager page = (s, .css css) ∧ InCss css c := by
  obtain ⟨hne, a, b, d, hr⟩ := C198.resolve_means code c hcol
  have hg : getPageColor inputs pager page = some (c.tuple a b d) := by
    unfold getPageColor
    rw [C198.pager_of inputs pager pages hp h1]
    exact (C198.search_found page code hne pages hn p hm hid hc).trans (congrArg some hr)
  have hcons : ∃ x xs, c.tuple a b d = x :: xs := ⟨'(', _, by simp only [Colour.tuple, List.append_assoc, List.singleton_append]; rfl⟩
  obtain ⟨x, xs, hx⟩ := hcons
  refine ⟨lit "rgb" ++ c.tuple a b d, ?_, a, b, d, rfl⟩
  unfold mark
  rw [hg, hx]

/-- Pages without colour, and pages of something which is no pager, get a mark of the numbered kind. -/
theorem C198_numbered (s : PageIcons.State) (inputs : List (Option Input)) (pager page : Text)
    (h : ∀ pages, IsPager inputs pager pages → ∀ p ∈ pages, p.id = some page → p.color = none) :
    (mark s inputs pager page).2 = .numbered (s.color pager page).2 ∧ (mark s inputs pager page).1 = (s.color pager page).1 := by
  have hg : getPageColor inputs pager page = none := by
    unfold getPageColor
    split
    · rfl
    · rename_i a ha
      split
      · rfl
      · rename_i ps hps
        unfold getPagerAction at ha
        obtain ⟨hname, i, hi, hmem⟩ := (C198.mem_actionsNamed inputs _ a).mp (List.mem_of_find?_eq_some ha)
        have hs : a.assign = some pager := by have := List.find?_some ha; simpa using this
        have he : a = ⟨lit "PagerAction", some pager, some ps⟩ := by
          cases a
          simp only at hname hs hps
          rw [hname, hs, hps]
        exact C198.search_none page ps (h ps ⟨i, hi, he ▸ hmem⟩)
  unfold mark
  rw [hg]
  exact ⟨rfl, rfl⟩

/-! ### Cases -/

/-- A pager which is held on the second input of the hardware; the first is not in the file. -/
def c198Inputs : List (Option Input) :=
  [none, some ⟨[⟨lit "TAP_TEMPO", none, none⟩], [⟨lit "PagerAction", some (lit "_pager"), some [⟨some (lit "1"), some (lit "Colors.ORANGE"), none⟩, ⟨some (lit "'b'"), some (lit "(1,2 ,3)"), none⟩,
    ⟨some (lit "3"), none, none⟩, ⟨some (lit "4"), some (lit "MY_COLOR"), none⟩]⟩]⟩]

example : (mark {} c198Inputs (lit "_pager") (lit "1")).2 = .css (lit "rgb(255, 125, 0)") ∧ (mark {} c198Inputs (lit "_pager") (lit "'b'")).2 = .css (lit "rgb(1,2 ,3)") ∧
    (mark {} c198Inputs (lit "_pager") (lit "3")).2 = .numbered 0 := by decide +kernel

example : IsPager c198Inputs (lit "_pager") [⟨some (lit "1"), some (lit "Colors.ORANGE"), none⟩, ⟨some (lit "'b'"), some (lit "(1,2 ,3)"), none⟩, ⟨some (lit "3"), none, none⟩,
    ⟨some (lit "4"), some (lit "MY_COLOR"), none⟩] :=
  ⟨_, by unfold c198Inputs; exact List.mem_cons_of_mem _ (List.mem_cons_self ..), by simp⟩

example : Means (lit "(1,2 ,3)") ⟨1, 2, 3⟩ := .inr ⟨(0, 0), (0, 1), (0, 0), by decide +kernel⟩

example : OneValue c198Inputs (lit "_pager") := by
  have e : ∀ i, some i ∈ c198Inputs → ∀ a ∈ i.actions ++ i.hold, a.assign = some (lit "_pager") →
      some a = ((c198Inputs.filterMap id).flatMap fun i => i.actions ++ i.hold).getLast? := by
    intro i hi
    simp only [c198Inputs, List.mem_cons, List.not_mem_nil, or_false, reduceCtorEq, false_or, Option.some.injEq] at hi
    subst hi
    decide +kernel
  intro i j hi hj a ha b hb h1 h2
  exact Option.some.inj ((e i hi a ha h1).trans (e j hj b hb h2).symm)

/-- C198 fails if the id is written with other quotes than in the pager: for Python it is the same page, for the mark it is not. -/
theorem C198_quotes_witness : (mark {} c198Inputs (lit "_pager") (lit "\"b\"")).2 = .numbered 0 := by decide +kernel

/-- C198 fails for colours in variables: this is no colour in CSS, so that the mark has none, not even one of the numbered kind. -/
theorem C198_variable_witness : (mark {} c198Inputs (lit "_pager") (lit "4")).2 = .css (lit "rgbMY_COLOR") ∧ ∀ c, ¬ InCss (lit "rgbMY_COLOR") c := by
  refine ⟨by decide +kernel, ?_⟩
  rintro c ⟨p, q, r, h⟩
  have h2 : lit "MY_COLOR" = c.tuple p q r := List.append_cancel_left (as := lit "rgb") (by rw [← h]; decide +kernel)
  have h3 : (lit "MY_COLOR").head? = some '(' := by rw [h2]; rfl
  revert h3
  decide +kernel

end PySwitch.Props
