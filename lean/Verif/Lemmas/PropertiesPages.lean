import Verif.Lemmas.PropertiesDialog

/-!
The dialog: the choice of a page.
-/

namespace PySwitch.Properties
open Spec

/-- The options for the pages, as an update sets them. -/
def opts (d : Dialog) : Option (List Text) :=
  match d.kind with
  | .plain => none
  | .pager => d.pages.map fun l => (l.map fun q => optionValue q.id) ++ [lit "None"]
  | .proxy pagers =>
    match d.pager with
    | some (c :: cs) => (pagers.find? fun q => q.1 = c :: cs).map fun q => q.2.map fun q => optionValue q.id
    | _ => none

theorem update_opts {d : Dialog} {O : List Text} (ho : opts d = some O) {pg : Text} (hp : pageParam d.kind = some pg) {o : List Text}
    {s : Option Text} (hi : d.inputs pg = some (.choice o s)) :
    ∃ s', d.update.inputs pg = some (.choice O s') ∧ ∀ t, t ≠ [] → s = some t → t ∈ O → s' = some t := by
  unfold opts at ho
  unfold Dialog.update
  split at ho
  · simp at ho
  · rename_i hk
    rw [hk] at hp
    simp only [pageParam, Option.some.injEq] at hp
    subst hp
    rw [Option.map_eq_some_iff] at ho
    obtain ⟨l, hl, rfl⟩ := ho
    simp only [hk, hl, hi]
    refine ⟨_, by simp only [Dialog.setInput, if_true]; rfl, ?_⟩
    intro t ht e hm
    rw [e]
    cases t with
    | nil => exact absurd rfl ht
    | cons c cs => simp only [if_pos hm]
  · rename_i pagers hk
    rw [hk] at hp
    simp only [pageParam, Option.some.injEq] at hp
    subst hp
    split at ho
    · rename_i c cs hg
      rw [Option.map_eq_some_iff] at ho
      obtain ⟨q, hq, rfl⟩ := ho
      simp only [hk, hg, hq, hi]
      refine ⟨_, by simp only [Dialog.setInput, if_true]; rfl, ?_⟩
      intro t ht e hm
      rw [e, Option.getD_some, if_pos hm]
    · simp at ho

/-- Where the pages of a pager are. -/
def HasPages (d : Dialog) : Prop :=
  d.kind = .pager → ∃ q, q.name = lit "pages" ∧ (d.params.find? fun p => typeOf p = some .pages) = some q

theorem pages_eq {d : Dialog} (h : HasPages d) (hk : d.kind = .pager) :
    d.pages = match d.inputs (lit "pages") with | some (.pages l) => some l | _ => none := by
  obtain ⟨q, hq, hf⟩ := h hk
  unfold Dialog.pages
  rw [hf, ← hq]
  rfl

theorem opts_congr {d d' : Dialog} (h : HasPages d) (h' : HasPages d') (hk : d'.kind = d.kind) (hg : d'.pager = d.pager)
    (hi : d.kind = .pager → d'.inputs (lit "pages") = d.inputs (lit "pages")) : opts d' = opts d := by
  unfold opts
  rw [hk, hg]
  cases e : d.kind with
  | plain => rfl
  | proxy l => rfl
  | pager =>
    simp only
    rw [pages_eq h e, pages_eq h' (hk.trans e), hi e]

theorem HasPages.congr {d d' : Dialog} (h : HasPages d) (hk : d'.kind = d.kind) (hp : d'.params = d.params) : HasPages d' := by
  unfold HasPages
  rw [hk, hp]
  exact h

theorem pages_not_page {k : Kind} (hk : k = .pager) : some (lit "pages") ≠ pageParam k := by
  rw [hk]
  decide

theorem opts_update {d : Dialog} (h : HasPages d) : opts d.update = opts d := by
  obtain ⟨e1, e2, -, -, e5, e6⟩ := update_same d
  exact opts_congr h (h.congr e1 e2) e1 e5 fun e => e6 _ (pages_not_page e)

/-- What an argument is set for. -/
theorem setArgument_eq {d d' : Dialog} {a : Text × Val} (h : d.setArgument a.1 a.2 = some d') :
    ∃ i i', d.update.inputs a.1 = some i ∧ write i a.2 = some i' ∧ d' = (d.update.setInput a.1 i').update := by
  unfold Dialog.setArgument at h
  simp only at h
  cases h1 : d.update.param a.1 with
  | none => rw [h1] at h; simp at h
  | some p =>
    have hn : p.name = a.1 := by
      have := List.find?_some (Dialog.param.eq_1 d.update a.1 ▸ h1)
      simpa using this
    rw [h1] at h
    simp only [hn] at h
    cases h2 : d.update.inputs a.1 with
    | none => rw [h2] at h; simp at h
    | some i =>
      rw [h2] at h
      simp only at h
      cases h3 : write i a.2 with
      | none => rw [h3] at h; simp at h
      | some i' =>
        rw [h3] at h
        exact ⟨i, i', rfl, h3, by simpa using h.symm⟩

/-- An argument which is neither the page nor the pages does not change the choice. -/
theorem keep_choice {d d' : Dialog} {a : Text × Val} (h : d.setArgument a.1 a.2 = some d') (hp : HasPages d) {pg : Text}
    (hpg : pageParam d.kind = some pg) (hne : a.1 ≠ pg) (hnp : d.kind = .pager → a.1 ≠ lit "pages") {O o : List Text} (ho : opts d = some O)
    {t : Text} (ht : t ≠ []) (hm : t ∈ O) (hc : d.inputs pg = some (.choice o (some t))) :
    d'.inputs pg = some (.choice O (some t)) ∧ opts d' = some O := by
  obtain ⟨i, i', -, -, rfl⟩ := setArgument_eq h
  obtain ⟨e1, e2, -, -, e5, e6⟩ := update_same d
  obtain ⟨s, hs, hs'⟩ := update_opts ho hpg hc
  rw [hs' t ht rfl hm] at hs
  generalize hd2 : d.update.setInput a.1 i' = d2
  have k1 : d2.kind = d.kind := by rw [← hd2]; exact e1
  have k2 : d2.params = d.params := by rw [← hd2]; exact e2
  have k5 : d2.pager = d.pager := by rw [← hd2]; exact e5
  have kp : d2.inputs pg = some (.choice O (some t)) := by rw [← hd2]; simp only [Dialog.setInput]; rw [if_neg (Ne.symm hne)]; exact hs
  have ko : opts d2 = some O := by
    rw [← ho]
    refine opts_congr hp (hp.congr k1 k2) k1 k5 fun e => ?_
    rw [← hd2]
    simp only [Dialog.setInput]
    rw [if_neg (Ne.symm (hnp e)), e6 _ (pages_not_page e)]
  obtain ⟨s2, hs2, hs2'⟩ := update_opts ko (by rw [k1]; exact hpg) kp
  rw [hs2' t ht rfl hm] at hs2
  exact ⟨hs2, by rw [opts_update (hp.congr k1 k2)]; exact ko⟩

/-- The page is chosen. -/
theorem set_choice {d d' : Dialog} {pg t : Text} (h : d.setArgument pg (.code t) = some d') (hp : HasPages d)
    (hpg : pageParam d.kind = some pg) {O o : List Text} {s : Option Text} (ho : opts d = some O) (hc : d.inputs pg = some (.choice o s))
    (ht : t ≠ []) (hq : '"' ∉ t) (hm : t ∈ O) :
    d'.inputs pg = some (.choice O (some t)) ∧ opts d' = some O := by
  obtain ⟨i, i', hi, hw, rfl⟩ := setArgument_eq (a := (pg, .code t)) h
  simp only at hi hw ⊢
  obtain ⟨e1, e2, -, -, e5, e6⟩ := update_same d
  obtain ⟨s1, hs, -⟩ := update_opts ho hpg hc
  rw [hs, Option.some.injEq] at hi
  subst hi
  have hw' : i' = .choice O (some t) := by
    have : write (.choice O s1) (.code t) = some (.choice O (if singleQuotes t ∈ O then some (singleQuotes t) else none)) := rfl
    rw [this, single_eq, single_id hq, if_pos hm, Option.some.injEq] at hw
    exact hw.symm
  subst hw'
  generalize hd2 : d.update.setInput pg (.choice O (some t)) = d2
  have k1 : d2.kind = d.kind := by rw [← hd2]; exact e1
  have k2 : d2.params = d.params := by rw [← hd2]; exact e2
  have k5 : d2.pager = d.pager := by rw [← hd2]; exact e5
  have kp : d2.inputs pg = some (.choice O (some t)) := by rw [← hd2]; simp [Dialog.setInput]
  have ko : opts d2 = some O := by
    rw [← ho]
    refine opts_congr hp (hp.congr k1 k2) k1 k5 fun e => ?_
    rw [← hd2]
    simp only [Dialog.setInput]
    have : lit "pages" ≠ pg := fun e' => pages_not_page e (by rw [hpg, e'])
    rw [if_neg this, e6 _ (pages_not_page e)]
  obtain ⟨s2, hs2, hs2'⟩ := update_opts ko (by rw [k1]; exact hpg) kp
  rw [hs2' t ht rfl hm] at hs2
  exact ⟨hs2, by rw [opts_update (hp.congr k1 k2)]; exact ko⟩

/-- The pages of a pager are set. -/
theorem set_pages {d d' : Dialog} {l : List Page} (h : d.setArgument (lit "pages") (.pages l) = some d') (hk : d.kind = .pager) (hp : HasPages d)
    (hx : ∃ x, d.inputs (lit "pages") = some (.pages x)) (hl : ∀ q ∈ l, q.shown = q) :
    opts d' = some ((l.map fun q => optionValue q.id) ++ [lit "None"]) := by
  obtain ⟨i, i', hi, hw, rfl⟩ := setArgument_eq (a := (lit "pages", .pages l)) h
  simp only at hi hw ⊢
  obtain ⟨e1, e2, -, -, e5, e6⟩ := update_same d
  obtain ⟨x, hx⟩ := hx
  rw [e6 _ (pages_not_page hk), hx, Option.some.injEq] at hi
  subst hi
  have hw' : i' = .pages l := by
    have hm : l.map Page.shown = l := by
      conv => rhs; rw [← List.map_id l]
      exact List.map_congr_left fun q hq => hl q hq
    simp only [write, Option.some.injEq] at hw
    rw [← hw, hm]
  subst hw'
  have hp2 : HasPages (d.update.setInput (lit "pages") (.pages l)) := hp.congr e1 e2
  have k1 : (d.update.setInput (lit "pages") (.pages l)).kind = .pager := e1.trans hk
  rw [opts_update hp2]
  unfold opts
  rw [k1]
  simp only
  rw [pages_eq hp2 k1]
  simp [Dialog.setInput]

/-- The input for the pages of a pager. -/
theorem Ready.pagesInput {d : Dialog} (h : Ready d) (hp : HasPages d) (hk : d.kind = .pager) : ∃ x, d.inputs (lit "pages") = some (.pages x) := by
  obtain ⟨q, hq, hf⟩ := hp hk
  have hm := List.mem_of_find?_eq_some hf
  have ht := List.find?_some hf
  simp only [decide_eq_true_eq] at ht
  obtain ⟨i0, i, h1, h2, h3⟩ := h.inputs q hm (by rw [hq]; exact pages_not_page hk)
  simp only [fresh, ht, Option.some.injEq] at h1
  subst h1
  rw [← hq, h2]
  cases i <;> simp only [Like] at h3
  exact ⟨_, rfl⟩

/-- After the page has been chosen. -/
theorem keep_choices (args : List (Text × Val)) {d d' : Dialog} (h : d.setArguments args = some d') (hp : HasPages d) {pg : Text}
    (hpg : pageParam d.kind = some pg) (hne : pg ∉ args.map Prod.fst) (hnp : d.kind = .pager → lit "pages" ∉ args.map Prod.fst)
    {O o : List Text} (ho : opts d = some O) {t : Text} (ht : t ≠ []) (hm : t ∈ O) (hc : d.inputs pg = some (.choice o (some t))) :
    d'.inputs pg = some (.choice O (some t)) := by
  induction args generalizing d o with
  | nil =>
    simp only [Dialog.setArguments, Option.some.injEq] at h
    subst h
    obtain ⟨s, hs, hs'⟩ := update_opts ho hpg hc
    rw [hs' t ht rfl hm] at hs
    exact hs
  | cons a args ih =>
    obtain ⟨n, v⟩ := a
    simp only [List.map_cons, List.mem_cons, not_or] at hne hnp
    simp only [Dialog.setArguments] at h
    cases h1 : d.setArgument n v with
    | none => rw [h1] at h; simp at h
    | some d1 =>
      rw [h1] at h
      obtain ⟨c1, c2⟩ := keep_choice (a := (n, v)) h1 hp hpg (Ne.symm hne.1) (fun e => Ne.symm (hnp e).1) ho ht hm hc
      obtain ⟨i, i', -, -, e⟩ := setArgument_eq (a := (n, v)) h1
      have hk : d1.kind = d.kind := by rw [e, (update_same _).1]; exact (update_same d).1
      have hps : d1.params = d.params := by rw [e, (update_same _).2.1]; exact (update_same d).2.1
      exact ih h (hp.congr hk hps) (by rw [hk]; exact hpg) hne.2 (fun e => (hnp (by rw [← hk]; exact e)).2) c2 c1

/-- The page can be chosen when its turn comes. -/
def Pending (d : Dialog) (pg t : Text) (args : List (Text × Val)) : Prop :=
  (∃ O, opts d = some O ∧ t ∈ O ∧ (d.kind = .pager → lit "pages" ∉ args.map Prod.fst)) ∨
  (d.kind = .pager ∧ ∃ l, (lit "pages", Val.pages l) ∈ args ∧ t ∈ (l.map fun q => optionValue q.id) ++ [lit "None"] ∧
    ∀ pre post v, args = pre ++ (pg, v) :: post → lit "pages" ∉ post.map Prod.fst)

/-- The choice of the page is kept. -/
theorem choice_kept (args : List (Text × Val)) {d d' : Dialog} (h : Ready d) (hd : Distinct d.params) (hn : (args.map Prod.fst).Nodup)
    (ha : ∀ a ∈ args, ArgOk d a) (hs : d.setArguments args = some d') (hp : HasPages d) {pg t : Text} (hpg : pageParam d.kind = some pg)
    (hin : (pg, Val.code t) ∈ args) (ht : t ≠ []) (hq : '"' ∉ t) (hw : Pending d pg t args) :
    ∃ O, d'.inputs pg = some (.choice O (some t)) := by
  induction args generalizing d with
  | nil => simp at hin
  | cons a args ih =>
    obtain ⟨n, v⟩ := a
    have haa := ha (n, v) (by simp)
    obtain ⟨d1, s1, r1, k1, p1, -, -, g1, o1, -⟩ := setArgument_spec h hd haa
    simp only at s1
    simp only [Dialog.setArguments, s1] at hs
    simp only [List.map_cons, List.nodup_cons] at hn
    have hp1 : HasPages d1 := hp.congr k1 p1
    rcases List.mem_cons.1 hin with e | hin
    · -- its turn
      simp only [Prod.mk.injEq] at e
      obtain ⟨rfl, rfl⟩ := e
      obtain ⟨O, ho, hm, hnp⟩ : ∃ O, opts d = some O ∧ t ∈ O ∧ (d.kind = .pager → lit "pages" ∉ args.map Prod.fst) := by
        rcases hw with ⟨O, a, b, c⟩ | ⟨hk, l, hl, -, hpre⟩
        · exact ⟨O, a, b, fun e => fun hc => c e (by rw [List.map_cons]; exact List.mem_cons_of_mem _ hc)⟩
        · have := hpre [] args _ rfl
          rcases List.mem_cons.1 hl with e | hl
          · simp only [Prod.mk.injEq] at e
            cases e.2
          · exact absurd (List.mem_map_of_mem hl) this
      obtain ⟨q, hq', hqn, -⟩ := haa
      obtain ⟨o, s, hc⟩ := h.page q hq' (by rw [hqn]; exact hpg.symm)
      rw [hqn] at hc
      obtain ⟨c1, c2⟩ := set_choice s1 hp hpg ho hc ht hq hm
      exact ⟨O, keep_choices args hs hp1 (by rw [k1]; exact hpg) hn.1 (fun e => hnp (by rw [← k1]; exact e)) c2 ht hm c1⟩
    · have hne : n ≠ pg := fun e => hn.1 (by rw [e]; exact List.mem_map_of_mem hin)
      refine ih r1 (by rw [p1]; exact hd) hn.2 (fun b hb => ?_) hs hp1 (by rw [k1]; exact hpg) hin ?_
      · have := ha b (by simp [hb])
        unfold ArgOk at this ⊢
        rw [k1, p1]
        exact this
      · unfold Pending
        rw [k1]
        rcases hw with ⟨O, ho, hm, hnp⟩ | ⟨hk, l, hl, hm, hpre⟩
        · refine Or.inl ⟨O, ?_, hm, fun e hc => hnp e (by rw [List.map_cons]; exact List.mem_cons_of_mem _ hc)⟩
          rw [← ho]
          refine opts_congr hp hp1 k1 g1 fun e => o1 _ (pages_not_page e) fun e' => hnp e (by rw [e']; simp)
        · rcases List.mem_cons.1 hl with e | hl
          · simp only [Prod.mk.injEq] at e
            obtain ⟨rfl, rfl⟩ := e
            refine Or.inl ⟨_, set_pages s1 hk hp (h.pagesInput hp hk) ?_, hm, fun _ => hn.1⟩
            obtain ⟨q, hq', hqn, hsh, -⟩ := haa
            have hnot : some q.name ≠ pageParam d.kind := by rw [hqn]; exact pages_not_page hk
            have hsh := hsh hnot
            obtain ⟨q2, hq2, hf2⟩ := hp hk
            have ht2 := List.find?_some hf2
            simp only [decide_eq_true_eq] at ht2
            have hqq : q = q2 := by
              have a1 := find_param hd hq'
              have a2 := find_param hd (List.mem_of_find?_eq_some hf2)
              rw [hqn] at a1
              rw [hq2, a1] at a2
              simpa using a2
            unfold Shows at hsh
            have hfr : fresh q = some (.pages []) := by rw [hqq]; simp [fresh, ht2]
            rw [hfr] at hsh
            exact fun x hx => shown_id (hsh x hx)
          · refine Or.inr ⟨hk, l, hl, hm, fun pre post w e => hpre ((n, v) :: pre) post w (by rw [e]; rfl)⟩

/-- A pager which rotates. -/
theorem none_kept (args : List (Text × Val)) {d d' : Dialog} (h : Ready d) (hd : Distinct d.params) (hn : (args.map Prod.fst).Nodup)
    (ha : ∀ a ∈ args, ArgOk d a) (hs : d.setArguments args = some d') (hp : HasPages d) (hk : d.kind = .pager)
    (hnot : lit "select_page" ∉ args.map Prod.fst) (hc : ∃ o, d.inputs (lit "select_page") = some (.choice o (some (lit "None")))) :
    ∃ O, d'.inputs (lit "select_page") = some (.choice O (some (lit "None"))) := by
  have hopt : ∀ e : Dialog, Ready e → HasPages e → e.kind = .pager → ∃ O, opts e = some O ∧ lit "None" ∈ O := by
    intro e hr he hke
    obtain ⟨x, hx⟩ := hr.pagesInput he hke
    refine ⟨_, by unfold opts; rw [hke]; simp only; rw [pages_eq he hke, hx]; rfl, by simp⟩
  have hpg : pageParam d.kind = some (lit "select_page") := by rw [hk]; rfl
  obtain ⟨o, hc⟩ := hc
  induction args generalizing d o with
  | nil =>
    simp only [Dialog.setArguments, Option.some.injEq] at hs
    subst hs
    obtain ⟨O, ho, hm⟩ := hopt d h hp hk
    obtain ⟨s, hs, hs'⟩ := update_opts ho hpg hc
    rw [hs' _ (by decide) rfl hm] at hs
    exact ⟨O, hs⟩
  | cons a args ih =>
    obtain ⟨n, v⟩ := a
    obtain ⟨d1, s1, r1, k1, p1, -⟩ := setArgument_spec h hd (ha (n, v) (by simp))
    simp only at s1
    simp only [Dialog.setArguments, s1] at hs
    simp only [List.map_cons, List.nodup_cons] at hn
    simp only [List.map_cons, List.mem_cons, not_or] at hnot
    obtain ⟨i, i', -, -, e⟩ := setArgument_eq (a := (n, v)) s1
    simp only at e
    obtain ⟨e1, e2, -, -, e5, e6⟩ := update_same d
    have hstep : ∃ o, d1.inputs (lit "select_page") = some (.choice o (some (lit "None"))) := by
      obtain ⟨O, ho, hm⟩ := hopt d h hp hk
      obtain ⟨s, hs, hs'⟩ := update_opts ho hpg hc
      rw [hs' _ (by decide) rfl hm] at hs
      obtain ⟨O2, ho2, hm2⟩ := hopt d1 r1 (hp.congr k1 p1) (k1.trans hk)
      have hp2 : HasPages (d.update.setInput n i') := hp.congr e1 e2
      rw [e, opts_update hp2] at ho2
      have kc : (d.update.setInput n i').inputs (lit "select_page") = some (.choice O (some (lit "None"))) := by
        simp only [Dialog.setInput]
        rw [if_neg hnot.1]
        exact hs
      obtain ⟨s2, hs2, hs2'⟩ := update_opts ho2 (pg := lit "select_page") (by rw [← hpg]; exact congrArg pageParam e1) kc
      rw [hs2' _ (by decide) rfl hm2] at hs2
      exact ⟨O2, by rw [e]; exact hs2⟩
    obtain ⟨o1, ho1⟩ := hstep
    refine ih r1 (by rw [p1]; exact hd) hn.2 (fun b hb => ?_) hs (hp.congr k1 p1) (k1.trans hk) hnot.2 (by rw [k1]; exact hpg) o1 ho1
    have := ha b (by simp [hb])
    unfold ArgOk at this ⊢
    rw [k1, p1]
    exact this

end PySwitch.Properties
