import Verif.Lemmas.PropertiesPages

/-!
The dialog for an action of the configuration.
-/

namespace PySwitch.Properties
open Spec

theorem given_some {args : List (Text × Val)} (hn : (args.map Prod.fst).Nodup) {p : Param} {v : Val} (h : (p.name, v) ∈ args) :
    effective p (given args) = some v := by
  induction args with
  | nil => simp at h
  | cons x args ih =>
    simp only [List.map_cons, List.nodup_cons] at hn
    unfold effective given
    rw [List.map_cons, List.find?_cons]
    rcases List.mem_cons.1 h with e | h
    · rw [← e]
      simp
    · have : x.1 ≠ p.name := fun e => hn.1 (by rw [e]; exact List.mem_map_of_mem h)
      simp only [this, decide_false]
      exact ih hn.2 h

theorem given_none {args : List (Text × Val)} {p : Param} (h : p.name ∉ args.map Prod.fst) : effective p (given args) = p.default.map Val.code := by
  unfold effective
  have : (given args).find? (fun a => decide (a.1 = p.name)) = none := by
    rw [List.find?_eq_none]
    intro x hx
    simp only [given, List.mem_map] at hx
    obtain ⟨y, hy, rfl⟩ := hx
    simp only [decide_eq_true_eq]
    exact fun e => h (by rw [← e]; exact List.mem_map_of_mem hy)
  rw [this]

/-- A dialog with other settings around the parameters. -/
def Dialog.around (d : Dialog) (assign : Text) (hold : Bool) (pager : Option Text) : Dialog := ⟨d.kind, d.params, d.inputs, assign, hold, pager⟩

theorem edit_around {kind : Kind} {ps : List Param} {sug : Text} {a : Action} {d : Dialog} (h : Dialog.show kind ps none sug = some d) :
    ∃ pager, Dialog.edit kind ps sug a = (d.around (oneLine (a.assign.getD [])) a.hold pager).setArguments a.args ∧
      (∀ pagers x, kind = .proxy pagers → a.pager = some x → x ∈ pagers.map Prod.fst → pager = some x) := by
  simp only [Dialog.edit, h]
  cases kind with
  | plain => exact ⟨d.pager, rfl, fun _ _ e => by cases e⟩
  | pager => exact ⟨d.pager, rfl, fun _ _ e => by cases e⟩
  | proxy pagers =>
    cases hg : a.pager with
    | none => exact ⟨d.pager, rfl, fun _ _ _ e => by cases e⟩
    | some x => exact ⟨if x ∈ pagers.map Prod.fst then some x else none, rfl, fun _ _ e e' hm => by cases e; cases e'; rw [if_pos hm]⟩

theorem option_plain {t : Text} (h : '"' ∉ t) : optionValue t = t := by
  unfold optionValue
  induction t with
  | nil => rfl
  | cons c t ih =>
    simp only [List.mem_cons, not_or] at h
    have : (c != '"') = true := by simpa using Ne.symm h.1
    rw [List.takeWhile_cons, if_pos this, ih h.2]

theorem option_mem {t : Text} (h : '"' ∉ t) {l : List Page} (hm : t ∈ l.map Page.id) : t ∈ l.map fun q => optionValue q.id := by
  rw [List.mem_map] at hm ⊢
  obtain ⟨q, hq, rfl⟩ := hm
  exact ⟨q, hq, option_plain h⟩

/-- A pager rotates at first. -/
theorem show_none {ps : List Param} {sug : Text} {d : Dialog} (h : Dialog.show .pager ps none sug = some d) (hd : Distinct ps)
    (hp : PageParams .pager ps) {p : Param} (hin : p ∈ ps) (hpn : p.name = lit "select_page") :
    ∃ o, d.inputs (lit "select_page") = some (.choice o (some (lit "None"))) := by
  unfold Dialog.show at h
  cases hf : inputsFor none ps with
  | none => rw [hf] at h; simp at h
  | some f =>
    rw [hf] at h
    simp only [Option.some.injEq] at h
    subst h
    have hs := inputsFor_spec hd hf
    generalize hd0 : (Dialog.mk .pager ps f sug (oldHold none) (firstPager .pager)) = d0
    have c1 : d0.kind = .pager := by rw [← hd0]
    have c3 : d0.inputs = f := by rw [← hd0]
    have hpp : HasPages d0 := by
      intro _
      rw [← hd0]
      exact hp.2 rfl
    obtain ⟨q, hq, hfq⟩ := hpp c1
    have hqm : q ∈ ps := by rw [← hd0] at hfq; exact List.mem_of_find?_eq_some hfq
    have ht := List.find?_some hfq
    simp only [decide_eq_true_eq] at ht
    obtain ⟨i, a, b⟩ := hs q hqm
    simp only [fresh, ht, Option.some.injEq] at a
    subst a
    obtain ⟨j, a', b'⟩ := hs p hin
    have ht' : typeOf p = some .selectPage := by simp [typeOf, hp.1 p hin (by rw [hpn]; rfl)]
    simp only [fresh, ht', Option.some.injEq] at a'
    subst a'
    rw [hpn] at b'
    rw [hq] at b
    have hpag : d0.pages = some [] := by rw [pages_eq hpp c1, c3, b]
    unfold Dialog.update
    simp only [c1, hpag, c3, b', Dialog.setInput, if_true]
    exact ⟨_, rfl⟩

/-- What the dialog makes of an action which it can show. -/
theorem edit_spec {kind : Kind} {ps : List Param} {a : Action} (h : Editable kind ps a) (sug : Text) :
    ∃ d, Dialog.edit kind ps sug a = some d ∧ d.params = ps ∧ d.kind = kind ∧ d.hold = a.hold ∧ d.assign = oneLine (a.assign.getD []) ∧ d.proxyOf = a.pager ∧
      ∀ p ∈ ps, Known kind a p → Same (effective p d.arguments) (effective p (given a.args)) := by
  obtain ⟨d0, hs0, r0, k0, p0, f0⟩ := show_spec h.params h.inputs h.pages sug
  obtain ⟨pager, he, hpg⟩ := edit_around (a := a) hs0
  generalize hd1 : d0.around (oneLine (a.assign.getD [])) a.hold pager = d1 at he
  have k1 : d1.kind = kind := by rw [← hd1]; exact k0
  have p1 : d1.params = ps := by rw [← hd1]; exact p0
  have i1 : d1.inputs = d0.inputs := by rw [← hd1]; rfl
  have r1 : Ready d1 := by
    constructor
    · rw [k1, p1, i1, ← k0, ← p0]; exact r0.inputs
    · rw [k1, p1, i1, ← k0, ← p0]; exact r0.page
  have ha : ∀ x ∈ a.args, ArgOk d1 x := by
    intro x hx
    obtain ⟨p, hp, hn, hsh, hc⟩ := h.shown x hx
    refine ⟨p, by rw [p1]; exact hp, hn, by rw [k1]; exact hsh, ?_⟩
    rw [k1]
    intro e
    obtain ⟨t, ht, -⟩ := hc e
    exact ⟨t, ht⟩
  have hdist : Distinct d1.params := by rw [p1]; exact h.params
  obtain ⟨d, hs, r, k, p, as, ho, g, oth, val⟩ := setArguments_spec a.args r1 hdist h.args ha
  rw [k1] at oth val
  have hpp : HasPages d1 := by
    intro e
    rw [p1]
    exact h.pages.2 (k1.symm.trans e)
  refine ⟨d, he.trans hs, p.trans p1, k.trans k1, ho.trans (by rw [← hd1]; rfl), as.trans (by rw [← hd1]; rfl), ?_, ?_⟩
  · have hgp : d.pager = pager := g.trans (by rw [← hd1]; rfl)
    unfold Dialog.proxyOf
    rw [k, k1, hgp]
    cases kind with
    | plain => exact (h.plain (fun _ e => by cases e)).symm
    | pager => exact (h.plain (fun _ e => by cases e)).symm
    | proxy pagers =>
      obtain ⟨x, hx, hx0, hxm⟩ := h.proxy pagers rfl
      rw [hpg pagers x rfl hx hxm, hx]
      cases x with
      | nil => exact absurd rfl hx0
      | cons c cs => rfl
  · intro q hq hkn
    rw [effective_arguments (by rw [p, p1]; exact h.params) (by rw [p, p1]; exact hq)]
    by_cases hpage : some q.name = pageParam kind
    · -- the choice of a page
      by_cases hgiven : q.name ∈ a.args.map Prod.fst
      · rw [List.mem_map] at hgiven
        obtain ⟨⟨n, v⟩, hin, hnm⟩ := hgiven
        simp only at hnm
        subst hnm
        obtain ⟨q', hq', hqn, -, hc⟩ := h.shown _ hin
        obtain ⟨t, ht, hmem, hne, hquote⟩ := hc (by rw [hqn]; exact hpage)
        simp only at ht
        subst ht
        have hpd : Pending d1 q.name t a.args := by
          unfold Pending
          rw [k1]
          cases kind with
          | plain => simp [pageParam] at hpage
          | pager =>
            simp only [pageParam, Option.some.injEq] at hpage
            simp only [choosable] at hmem
            cases hfind : a.args.find? (fun x => decide (x.1 = lit "pages")) with
            | none =>
              rw [hfind] at hmem
              have hnot : lit "pages" ∉ a.args.map Prod.fst := by
                rw [List.mem_map]
                rintro ⟨y, hy, hy'⟩
                have := List.find?_eq_none.1 hfind y hy
                simp [hy'] at this
              obtain ⟨x, hx⟩ := r1.pagesInput hpp k1
              refine Or.inl ⟨_, by unfold opts; rw [k1]; simp only; rw [pages_eq hpp k1, hx]; rfl, ?_, fun _ => hnot⟩
              simp only [List.nil_append, List.mem_singleton] at hmem
              simp [hmem]
            | some y =>
              obtain ⟨yn, yv⟩ := y
              rw [hfind] at hmem
              have hyn := List.find?_some hfind
              simp only [decide_eq_true_eq] at hyn
              subst hyn
              have hym := List.mem_of_find?_eq_some hfind
              cases yv with
              | code c =>
                obtain ⟨q2, hq2, hq2n, hsh, -⟩ := h.shown _ hym
                obtain ⟨q3, hq3, hf3⟩ := h.pages.2 rfl
                have ht3 := List.find?_some hf3
                simp only [decide_eq_true_eq] at ht3
                have e23 : q2 = q3 := by
                  have a1 := find_param h.params hq2
                  have a2 := find_param h.params (List.mem_of_find?_eq_some hf3)
                  rw [hq2n] at a1
                  rw [hq3, a1] at a2
                  simpa using a2
                have := hsh (by rw [hq2n]; exact pages_not_page rfl)
                unfold Shows at this
                have hfr : fresh q2 = some (.pages []) := by rw [e23]; simp [fresh, ht3]
                rw [hfr] at this
                exact absurd this (by simp)
              | pages l =>
                refine Or.inr ⟨rfl, l, hym, ?_, ?_⟩
                · simp only [List.mem_append, List.mem_singleton] at hmem ⊢
                  rcases hmem with hmem | hmem
                  · exact Or.inl (option_mem hquote hmem)
                  · exact Or.inr hmem
                · intro pre post w e
                  rw [hpage] at e
                  exact h.order rfl pre post w e
          | proxy pagers =>
            obtain ⟨x, hx, hx0, hxm⟩ := h.proxy pagers rfl
            have hgx : d1.pager = some x := by rw [← hd1]; exact hpg pagers x rfl hx hxm
            simp only [choosable, hx, Option.some.injEq] at hmem
            cases hfind : pagers.find? (fun q => decide (q.1 = x)) with
            | none => rw [hfind] at hmem; simp at hmem
            | some y =>
              rw [hfind] at hmem
              refine Or.inl ⟨y.2.map fun q => optionValue q.id, ?_, option_mem hquote hmem, fun e => by cases e⟩
              unfold opts
              rw [k1]
              simp only [hgx]
              cases x with
              | nil => exact absurd rfl hx0
              | cons c cs => simp only [hfind, Option.map_some]
        obtain ⟨O, hO⟩ := choice_kept a.args r1 hdist h.args ha hs hpp (by rw [k1]; exact hpage.symm) hin hne hquote hpd
        rw [given_some h.args hin, Dialog.value, hO]
        have hty : q.md.type ≠ some .text := by rw [h.pages.1 q hq hpage]; decide
        simp only [Option.bind_some, read, Input.val, Option.map_some, if_neg hne, convert_other hty]
        rfl
      · rcases hkn with hkn | hkn | ⟨hk, hqn, hdf⟩
        · exact absurd hkn hgiven
        · exfalso
          obtain ⟨x, -, -, hx⟩ := hkn
          have hty : typeOf q = some .selectPage := by simp [typeOf, h.pages.1 q hq hpage]
          have hfr : fresh q = some (.choice [] none) := by simp [fresh, hty]
          rw [hfr] at hx
          simp at hx
        · subst hk
          rw [given_none hgiven, hdf]
          obtain ⟨O, hO⟩ := none_kept a.args r1 hdist h.args ha hs hpp k1 (by rw [← hqn]; exact hgiven)
            (by rw [i1]; exact show_none hs0 h.params h.pages hq hqn)
          rw [Dialog.value, hqn, hO]
          have hty : q.md.type ≠ some .text := by rw [h.pages.1 q hq hpage]; decide
          simp only [Option.bind_some, read, Input.val, Option.map_some, convert_other hty]
          rfl
    · by_cases hgiven : q.name ∈ a.args.map Prod.fst
      · rw [List.mem_map] at hgiven
        obtain ⟨⟨n, v⟩, hin, hnm⟩ := hgiven
        simp only at hnm
        subst hnm
        rw [given_some h.args hin]
        exact val q (by rw [p1]; exact hq) hpage _ hin rfl
      · rcases hkn with hkn | hkn | ⟨hk, hqn, hdf⟩
        · exact absurd hkn hgiven
        · rw [given_none hgiven, Dialog.value, oth _ hpage hgiven, i1, f0 q hq hpage]
          obtain ⟨i, hi⟩ := h.inputs q hq
          rw [hi]
          exact read_fresh hkn hi
        · exact absurd (by rw [hk, hqn]; rfl) hpage

end PySwitch.Properties
