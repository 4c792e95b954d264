import Verif.Spec.Local
import Verif.Lemmas.Num
import Verif.Lemmas.Misc
/-
Lemmas about the local actions.
-/
namespace PySwitch.Local

/-! ### Pager -/

theorem pageIndex_some {id : Id} : ∀ (ps : List Page) (i k : Nat), pageIndex id ps i = some k →
    ∃ j page, k = i + j ∧ ps[j]? = some page ∧ page.id = id := by
  intro ps
  induction ps with
  | nil => intro i k h; simp [pageIndex] at h
  | cons p ps ih =>
    intro i k h
    rw [pageIndex] at h
    by_cases hp : p.id = id
    · rw [if_pos hp] at h
      simp only [Option.some.injEq] at h
      exact ⟨0, p, by omega, rfl, hp⟩
    · rw [if_neg hp] at h
      obtain ⟨j, page, h1, h2, h3⟩ := ih (i + 1) k h
      exact ⟨j + 1, page, by omega, by simpa using h2, h3⟩

theorem pageIndex_known {id : Id} : ∀ (ps : List Page) (i : Nat), (∃ page ∈ ps, page.id = id) →
    ∃ k, pageIndex id ps i = some k := by
  intro ps
  induction ps with
  | nil => rintro i ⟨p, hp, _⟩; simp at hp
  | cons p ps ih =>
    rintro i ⟨q, hq, he⟩
    rw [pageIndex]
    by_cases hp : p.id = id
    · exact ⟨i, if_pos hp⟩
    · rw [if_neg hp]
      rcases List.mem_cons.1 hq with rfl | hq
      · exact absurd he hp
      · exact ih (i + 1) ⟨q, hq, he⟩

theorem pageIndex_get {id : Id} {ps : List Page} {k : Nat} (h : pageIndex id ps 0 = some k) :
    ∃ page, ps[k]? = some page ∧ page.id = id := by
  obtain ⟨j, page, h1, h2, h3⟩ := pageIndex_some ps 0 k h
  have : k = j := by omega
  subst this
  exact ⟨page, h2, h3⟩

theorem getPage_ok {ps : List Page} {i : Int} {page : Page} (h : ps[i.toNat]? = some page) :
    getPage ps i = .ok page := by simp [getPage, h]

/-- The LED effects of a proxy. -/
def proxyEff (p : Pager) (st : PagerState) (enabled : Selector → Bool) (i : Nat) (id : Id) : List PagerEff :=
  match pageIndex id p.pages 0 with
  | none => []
  | some k =>
    if enabled (.proxy i) then
      match p.pages[k]? with
      | some page => [.led (.proxy i) (page.color.getD white) (if (k : Int) = st.index then .on else .off)]
      | none => []
    else []

theorem proxyDisplay_ok (p : Pager) (st : PagerState) (enabled : Selector → Bool) (i : Nat) (id : Id) :
    proxyDisplay p st enabled i id = .ok (proxyEff p st enabled i id) := by
  unfold proxyDisplay proxyEff
  cases hk : pageIndex id p.pages 0 with
  | none => rfl
  | some k =>
    obtain ⟨page, h1, _⟩ := pageIndex_get hk
    by_cases he : enabled (.proxy i)
    · simp [he, getPage, h1]
    · simp [he]

def proxyEffs (p : Pager) (st : PagerState) (enabled : Selector → Bool) : List Id → Nat → List PagerEff
  | [], _ => []
  | id :: ids, i => proxyEff p st enabled i id ++ proxyEffs p st enabled ids (i + 1)

theorem proxyDisplays_ok (p : Pager) (st : PagerState) (enabled : Selector → Bool) : ∀ (ids : List Id) (i : Nat),
    proxyDisplays p st enabled ids i = .ok (proxyEffs p st enabled ids i) := by
  intro ids
  induction ids with
  | nil => intro i; rfl
  | cons id ids ih =>
    intro i
    rw [proxyDisplays, proxyDisplay_ok]
    simp only
    rw [ih]
    rfl

/-- The LED effect of the pager. -/
theorem pagerLed_ok (p : Pager) (st : PagerState) (page : Page) : ∃ c b, pagerLed p st page = .ok [.led .pager c b] ∧
    (∀ k sel, p.selectIndex = some k → p.pages[k]? = some sel →
      c = sel.color.getD white ∧ b = if (k : Int) = st.index then .on else .off) ∧
    (p.selectIndex = none → c = page.color.getD white ∧ b = .rotating) := by
  unfold pagerLed
  cases hs : p.selectIndex with
  | none => exact ⟨_, _, rfl, by simp, fun _ => ⟨rfl, rfl⟩⟩
  | some k =>
    have hk : ∃ page, p.pages[k]? = some page ∧ page.id = p.selectPage := by
      unfold Pager.selectIndex at hs
      by_cases ht : p.selectPage.truthy
      · rw [if_pos ht] at hs; exact pageIndex_get hs
      · rw [if_neg ht] at hs; simp at hs
    obtain ⟨sel, h1, _⟩ := hk
    refine ⟨sel.color.getD white, if (k : Int) = st.index then .on else .off, ?_, ?_, by simp⟩
    · simp [getPage, h1]
    · intro k' sel' hk' hsel
      simp only [Option.some.injEq] at hk'
      subst hk'
      rw [h1] at hsel
      simp only [Option.some.injEq] at hsel
      subst hsel
      exact ⟨rfl, rfl⟩

theorem selectIndex_get {p : Pager} {k : Nat} (hs : p.selectIndex = some k) :
    ∃ page, p.pages[k]? = some page ∧ page.id = p.selectPage := by
  unfold Pager.selectIndex at hs
  by_cases ht : p.selectPage.truthy
  · rw [if_pos ht] at hs; exact pageIndex_get hs
  · rw [if_neg ht] at hs; simp at hs

/-- In a valid state the displays can always be updated. -/
theorem pagerDisplays_ok (p : Pager) (st : PagerState) (enabled : Selector → Bool) (page : Page)
    (h : Current p st page) : ∃ es, pagerDisplays p st enabled = .ok es := by
  obtain ⟨h0, h1, _⟩ := h
  unfold pagerDisplays
  by_cases hl : p.pages.length = 0
  · exact ⟨[], by rw [if_pos hl]⟩
  rw [if_neg hl, if_neg (by omega)]
  by_cases he : enabled .pager
  · obtain ⟨c, b, hb, _⟩ := pagerLed_ok p st page
    simp only [he, getPage_ok h1, hb, proxyDisplays_ok]
    exact ⟨_, rfl⟩
  · exact ⟨[], by simp [he]⟩

theorem pagerInit_current (p : Pager) (hne : p.pages ≠ []) : ∃ page, Current p (pagerInit p) page := by
  cases hp : p.pages with
  | nil => exact absurd hp hne
  | cons a l => exact ⟨a, by simp [pagerInit], by simp [pagerInit, hp], by simp [pagerInit, hp]⟩

/-- The position after an event. -/
def nextIndex (p : Pager) (i : Nat) : PagerEvent → Nat
  | .push _ => p.selectIndex.getD ((i + 1) % p.pages.length)
  | .proxy j _ => ((p.proxies[j]?).bind (fun id => pageIndex id p.pages 0)).getD i
  | .update => i

theorem pagerStep_spec (p : Pager) (hm : p.hasMappings = false) (st : PagerState) (page : Page)
    (h : Current p st page) (e : PagerEvent) :
    ∃ r page', pagerStep p st e = .ok r ∧ Current p r.1 page' ∧
      r.1.index.toNat = nextIndex p st.index.toNat e := by
  obtain ⟨h0, h1, h2⟩ := h
  have hlt : st.index.toNat < p.pages.length := by
    rw [List.getElem?_eq_some_iff] at h1; exact h1.1
  have hne : p.pages.length ≠ 0 := by omega
  have hn0 : ¬ st.index < 0 := by omega
  have fin : ∀ (k : Nat) (page' : Page) (en : Selector → Bool), p.pages[k]? = some page' →
      ∃ es, pagerDisplays p { index := (k : Int), id := page'.id } en = .ok es ∧
        Current p { index := (k : Int), id := page'.id } page' := by
    intro k page' en hk
    have hc : Current p { index := (k : Int), id := page'.id } page' := ⟨by simp, by simpa using hk, rfl⟩
    obtain ⟨es, he⟩ := pagerDisplays_ok p _ en page' hc
    exact ⟨es, he, hc⟩
  cases e with
  | push en =>
    have : ∃ k : Nat, pushIndex p st = (k : Int) ∧ k < p.pages.length ∧
        k = nextIndex p st.index.toNat (.push en) := by
      unfold pushIndex
      cases hs : p.selectIndex with
      | some k =>
        obtain ⟨pg, hk, _⟩ := selectIndex_get hs
        rw [List.getElem?_eq_some_iff] at hk
        exact ⟨k, rfl, hk.1, by simp [nextIndex, hs]⟩
      | none =>
        simp only [nextIndex, hs, Option.getD_none]
        by_cases hge : st.index + 1 ≥ p.pages.length
        · refine ⟨0, by rw [if_pos hge]; rfl, by omega, ?_⟩
          have : st.index.toNat + 1 = p.pages.length := by omega
          rw [this, Nat.mod_self]
        · refine ⟨st.index.toNat + 1, by rw [if_neg hge]; omega, by omega, ?_⟩
          rw [Nat.mod_eq_of_lt (by omega)]
    obtain ⟨k, hk, hkl, hkn⟩ := this
    obtain ⟨es, he, hc⟩ := fin k (p.pages[k]) en (List.getElem?_eq_getElem hkl)
    refine ⟨(⟨(k : Int), p.pages[k].id⟩, .resetActions :: es), p.pages[k], ?_, hc, by simpa using hkn⟩
    unfold pagerStep pagerPush
    simp only [if_neg hne, if_neg hn0]
    simp only [hk]
    have hg : p.pages[(k : Int).toNat]? = some p.pages[k] := List.getElem?_eq_getElem hkl
    rw [getPage_ok hg]
    simp only [he]
  | proxy j en =>
    unfold pagerStep
    simp only [nextIndex]
    cases hp : p.proxies[j]? with
    | none => exact ⟨(st, []), page, rfl, ⟨h0, h1, h2⟩, by simp⟩
    | some id =>
      simp only [proxyPush, if_neg hn0, if_neg hne, Option.bind_some]
      cases hk : pageIndex id p.pages 0 with
      | none => exact ⟨(st, []), page, rfl, ⟨h0, h1, h2⟩, by simp⟩
      | some k =>
        obtain ⟨page', hk1, _⟩ := pageIndex_get hk
        obtain ⟨es, he, hc⟩ := fin k page' en hk1
        refine ⟨(⟨(k : Int), page'.id⟩, .resetActions :: es), page', ?_, hc, by simp⟩
        simp only
        rw [getPage_ok (by simpa using hk1)]
        simp only [he]
  | update => exact ⟨(st, []), page, by simp [pagerStep, hm], ⟨h0, h1, h2⟩, rfl⟩

theorem pagerRun_spec (p : Pager) (hm : p.hasMappings = false) : ∀ (es : List PagerEvent) (st : PagerState) (page : Page),
    Current p st page → ∃ r page', pagerRun p st es = .ok r ∧ Current p r.1 page' ∧
      r.1.index.toNat = es.foldl (nextIndex p) st.index.toNat := by
  intro es
  induction es with
  | nil => intro st page h; exact ⟨(st, []), page, rfl, h, rfl⟩
  | cons e es ih =>
    intro st page h
    obtain ⟨r, page', h1, h2, h3⟩ := pagerStep_spec p hm st page h e
    obtain ⟨r', page'', h4, h5, h6⟩ := ih r.1 page' h2
    refine ⟨(r'.1, r.2 :: r'.2), page'', ?_, h5, ?_⟩
    · rw [pagerRun, h1]; simp only; rw [h4]
    · simp only [List.foldl_cons]; rw [h6, h3]

theorem pagerRun_append (p : Pager) : ∀ (es fs : List PagerEvent) (st : PagerState) r, pagerRun p st es = .ok r →
    pagerRun p st (es ++ fs) = (pagerRun p r.1 fs).map (fun q => (q.1, r.2 ++ q.2)) := by
  intro es
  induction es with
  | nil =>
    intro fs st r h
    simp only [pagerRun, Except.ok.injEq] at h
    subst h
    cases hq : pagerRun p st fs <;> simp [hq, Except.map]
  | cons e es ih =>
    intro fs st r h
    rw [pagerRun] at h
    cases hs : pagerStep p st e with
    | error x => rw [hs] at h; simp at h
    | ok a =>
      rw [hs] at h
      simp only at h
      cases hr : pagerRun p a.1 es with
      | error x => rw [hr] at h; simp at h
      | ok b =>
        rw [hr] at h
        simp only [Except.ok.injEq] at h
        subst h
        rw [List.cons_append, pagerRun, hs]
        simp only
        rw [ih fs a.1 b hr]
        cases hq : pagerRun p b.1 fs <;> simp [Except.map]

/-! ### Displays of the pager -/

theorem shownText_append : ∀ (a b : List PagerEff) (s : Option String), shownText s (a ++ b) = shownText (shownText s a) b := by
  intro a
  induction a with
  | nil => intro b s; rfl
  | cons e a ih => intro b s; cases e <;> simp [shownText, ih]

theorem shownLed_append (x : Selector) : ∀ (a b : List PagerEff) (s : Option (Nat × Brightness)),
    shownLed x s (a ++ b) = shownLed x (shownLed x s a) b := by
  intro a
  induction a with
  | nil => intro b s; rfl
  | cons e a ih => intro b s; cases e <;> simp [shownLed, ih]

theorem proxyEff_text (p : Pager) (st : PagerState) (en : Selector → Bool) (i : Nat) (id : Id) (s : Option String) :
    shownText s (proxyEff p st en i id) = s := by
  unfold proxyEff
  cases pageIndex id p.pages 0 with
  | none => rfl
  | some k =>
    simp only
    by_cases he : en (.proxy i)
    · rw [if_pos he]
      cases p.pages[k]? <;> rfl
    · rw [if_neg he]; rfl

theorem proxyEffs_text (p : Pager) (st : PagerState) (en : Selector → Bool) : ∀ (ids : List Id) (i : Nat) (s : Option String),
    shownText s (proxyEffs p st en ids i) = s := by
  intro ids
  induction ids with
  | nil => intro i s; rfl
  | cons id ids ih => intro i s; rw [proxyEffs, shownText_append, proxyEff_text, ih]

theorem proxyEff_led (p : Pager) (st : PagerState) (en : Selector → Bool) (i : Nat) (id : Id) (x : Selector)
    (hx : x ≠ .proxy i) (s : Option (Nat × Brightness)) : shownLed x s (proxyEff p st en i id) = s := by
  unfold proxyEff
  cases pageIndex id p.pages 0 with
  | none => rfl
  | some k =>
    simp only
    by_cases he : en (.proxy i)
    · rw [if_pos he]
      cases p.pages[k]? with
      | none => rfl
      | some page => simp [shownLed, Ne.symm hx]
    · rw [if_neg he]; rfl

theorem proxyEffs_led_lt (p : Pager) (st : PagerState) (en : Selector → Bool) (x : Selector) : ∀ (ids : List Id) (i : Nat)
    (s : Option (Nat × Brightness)), (∀ j, i ≤ j → x ≠ .proxy j) → shownLed x s (proxyEffs p st en ids i) = s := by
  intro ids
  induction ids with
  | nil => intro i s _; rfl
  | cons id ids ih =>
    intro i s h
    rw [proxyEffs, shownLed_append, proxyEff_led _ _ _ _ _ _ (h i (by omega)), ih _ _ (fun j hj => h j (by omega))]

theorem proxyEffs_led (p : Pager) (st : PagerState) (en : Selector → Bool) : ∀ (ids : List Id) (i j : Nat) (id : Id) (k : Nat)
    (page : Page) (s : Option (Nat × Brightness)), ids[j]? = some id → en (.proxy (i + j)) = true →
    pageIndex id p.pages 0 = some k → p.pages[k]? = some page →
    shownLed (.proxy (i + j)) s (proxyEffs p st en ids i) =
      some (page.color.getD white, if (k : Int) = st.index then .on else .off) := by
  intro ids
  induction ids with
  | nil => intro i j id k page s h; simp at h
  | cons a ids ih =>
    intro i j id k page s h hen hk hp
    rw [proxyEffs, shownLed_append]
    cases j with
    | zero =>
      simp only [List.getElem?_cons_zero, Option.some.injEq] at h
      subst h
      rw [proxyEffs_led_lt _ _ _ _ _ _ _ (fun j hj => by simp; omega)]
      simp only [Nat.add_zero] at hen
      simp [proxyEff, hk, hen, hp, shownLed]
    | succ j =>
      have := ih (i + 1) j id k page (shownLed (.proxy (i + (j + 1))) s (proxyEff p st en i a)) (by simpa using h)
        (by rw [show i + 1 + j = i + (j + 1) by omega]; exact hen) hk hp
      rw [show i + 1 + j = i + (j + 1) by omega] at this
      exact this

/-- What is shown in a valid state. -/
structure PagerShown (p : Pager) (st : PagerState) (en : Selector → Bool) (text : Option String)
    (led : Selector → Option (Nat × Brightness)) : Prop where
  text : p.hasLabel = true → ∀ page, Current p st page → text = some (page.text.getD "")
  rotating : p.selectIndex = none → ∀ page, Current p st page → led .pager = some (page.color.getD white, .rotating)
  direct : ∀ k sel, p.selectIndex = some k → p.pages[k]? = some sel →
    led .pager = some (sel.color.getD white, if (k : Int) = st.index then .on else .off)
  proxy : ∀ j id k page, p.proxies[j]? = some id → en (.proxy j) = true → pageIndex id p.pages 0 = some k →
    p.pages[k]? = some page → led (.proxy j) = some (page.color.getD white, if (k : Int) = st.index then .on else .off)

theorem current_unique {p : Pager} {st : PagerState} {a b : Page} (ha : Current p st a) (hb : Current p st b) : a = b := by
  have := ha.2.1
  rw [hb.2.1] at this
  simpa using this.symm

theorem pagerDisplays_shown (p : Pager) (st : PagerState) (en : Selector → Bool) (page : Page) (h : Current p st page)
    (hen : en .pager = true) : ∃ es, pagerDisplays p st en = .ok es ∧
      ∀ (t : Option String) (l : Selector → Option (Nat × Brightness)), PagerShown p st en (shownText t es) (fun x => shownLed x (l x) es) := by
  obtain ⟨h0, h1, h2⟩ := h
  have hlt : st.index.toNat < p.pages.length := by
    rw [List.getElem?_eq_some_iff] at h1; exact h1.1
  obtain ⟨c, b, hb, hbs, hbr⟩ := pagerLed_ok p st page
  refine ⟨[.led .pager c b] ++ pagerLabel p page ++ proxyEffs p st en p.proxies 0, ?_, ?_⟩
  · unfold pagerDisplays
    rw [if_neg (by omega), if_neg (by omega)]
    simp only [hen, getPage_ok h1, hb, proxyDisplays_ok]
    rfl
  · intro t l
    have lab : ∀ x s, shownLed x s (pagerLabel p page) = s := by
      intro x s
      unfold pagerLabel
      cases p.hasLabel <;> cases p.hasBackColor <;> simp [shownLed]
    refine ⟨?_, ?_, ?_, ?_⟩
    · intro hl page' hc
      have := current_unique hc ⟨h0, h1, h2⟩
      subst this
      rw [shownText_append, proxyEffs_text, shownText_append]
      unfold pagerLabel
      cases hbc : p.hasBackColor <;> simp [shownText, hl]
    · intro hs page' hc
      have := current_unique hc ⟨h0, h1, h2⟩
      subst this
      obtain ⟨rfl, rfl⟩ := hbr hs
      show shownLed .pager (l .pager) _ = _
      rw [shownLed_append, proxyEffs_led_lt _ _ _ _ _ _ _ (by simp), shownLed_append, lab]
      simp [shownLed]
    · intro k sel hk hsel
      obtain ⟨rfl, rfl⟩ := hbs k sel hk hsel
      show shownLed .pager (l .pager) _ = _
      rw [shownLed_append, proxyEffs_led_lt _ _ _ _ _ _ _ (by simp), shownLed_append, lab]
      simp [shownLed]
    · intro j id k pg hj hen' hk hpg
      show shownLed (.proxy j) (l (.proxy j)) _ = _
      rw [shownLed_append]
      have := proxyEffs_led p st en p.proxies 0 j id k pg
        (shownLed (.proxy j) (l (.proxy j)) ([.led .pager c b] ++ pagerLabel p page)) hj (by simpa using hen') hk hpg
      simpa using this

/-- One event keeps everything shown. -/
theorem shown_step (p : Pager) (en : Selector → Bool) (st : PagerState) (page : Page) (h : Current p st page)
    (e : PagerEvent) (he : e.enabledFor .pager = true) (hp : ∀ j, en (.proxy j) = true → e.enabledFor (.proxy j) = true)
    (t : Option String) (l : Selector → Option (Nat × Brightness)) (hsh : PagerShown p st en t l) (r) (hr : pagerStep p st e = .ok r) :
    PagerShown p r.1 en (shownText t r.2) (fun x => shownLed x (l x) r.2) := by
  obtain ⟨h0, h1, h2⟩ := h
  have hlt : st.index.toNat < p.pages.length := by
    rw [List.getElem?_eq_some_iff] at h1; exact h1.1
  have weaken : ∀ (en' : Selector → Bool) st' t' l', (∀ j, en (.proxy j) = true → en' (.proxy j) = true) →
      PagerShown p st' en' t' l' → PagerShown p st' en t' l' := by
    intro en' st' t' l' hw hs
    exact ⟨hs.text, hs.rotating, hs.direct, fun j id k pg a b c d => hs.proxy j id k pg a (hw j b) c d⟩
  have fin : ∀ (i : Int) (en' : Selector → Bool) (pg : Page) (es : List PagerEff), 0 ≤ i → getPage p.pages i = .ok pg →
      en' .pager = true → (∀ j, en (.proxy j) = true → en' (.proxy j) = true) →
      pagerDisplays p { index := i, id := pg.id } en' = .ok es →
      PagerShown p { index := i, id := pg.id } en (shownText t (.resetActions :: es))
        (fun x => shownLed x (l x) (.resetActions :: es)) := by
    intro i en' pg es hi hg he' hp' hd
    have hc : Current p { index := i, id := pg.id } pg := by
      refine ⟨hi, ?_, rfl⟩
      unfold getPage at hg
      cases hh : p.pages[i.toNat]? with
      | none => rw [hh] at hg; simp at hg
      | some x => rw [hh] at hg; simp only [Except.ok.injEq] at hg; simp [hg]
    obtain ⟨es', hes, hall⟩ := pagerDisplays_shown p _ en' pg hc he'
    rw [hd] at hes
    simp only [Except.ok.injEq] at hes
    subst hes
    exact weaken en' _ _ _ hp' (hall t l)
  cases e with
  | push en' =>
    unfold pagerStep pagerPush at hr
    simp only [if_neg (show ¬ p.pages.length = 0 by omega), if_neg (show ¬ st.index < 0 by omega)] at hr
    have hi0 : 0 ≤ pushIndex p st := by
      unfold pushIndex
      cases p.selectIndex with
      | some k => simp
      | none => simp only; by_cases hg : st.index + 1 ≥ p.pages.length <;> simp only [hg, if_true, if_false] <;> omega
    cases hg : getPage p.pages (pushIndex p st) with
    | error x => rw [hg] at hr; simp at hr
    | ok pg =>
      rw [hg] at hr
      simp only at hr
      cases hd : pagerDisplays p { index := pushIndex p st, id := pg.id } en' with
      | error x => rw [hd] at hr; simp at hr
      | ok es =>
        rw [hd] at hr
        simp only [Except.ok.injEq] at hr
        subst hr
        exact fin _ en' pg es hi0 hg he hp hd
  | proxy j en' =>
    simp only [pagerStep] at hr
    cases hj : p.proxies[j]? with
    | none => rw [hj] at hr; simp only [Except.ok.injEq] at hr; subst hr; exact hsh
    | some id =>
      rw [hj] at hr
      simp only [proxyPush, if_neg (show ¬ p.pages.length = 0 by omega), if_neg (show ¬ st.index < 0 by omega)] at hr
      cases hk : pageIndex id p.pages 0 with
      | none => rw [hk] at hr; simp only [Except.ok.injEq] at hr; subst hr; exact hsh
      | some k =>
        rw [hk] at hr
        simp only at hr
        cases hg : getPage p.pages (k : Int) with
        | error x => rw [hg] at hr; simp at hr
        | ok pg =>
          rw [hg] at hr
          simp only at hr
          cases hd : pagerDisplays p { index := (k : Int), id := pg.id } en' with
          | error x => rw [hd] at hr; simp at hr
          | ok es =>
            rw [hd] at hr
            simp only [Except.ok.injEq] at hr
            subst hr
            exact fin k en' pg es (by omega) hg he hp hd
  | update =>
    simp only [pagerStep] at hr
    cases hm : p.hasMappings with
    | true => rw [hm] at hr; simp at hr
    | false => rw [hm] at hr; simp only [Bool.false_eq_true, if_false, Except.ok.injEq] at hr; subst hr; exact hsh

theorem shown_run (p : Pager) (hm : p.hasMappings = false) (en : Selector → Bool) : ∀ (es : List PagerEvent) (st : PagerState)
    (page : Page), Current p st page → (∀ e ∈ es, e.enabledFor .pager = true) →
    (∀ e ∈ es, ∀ j, en (.proxy j) = true → e.enabledFor (.proxy j) = true) →
    ∀ t l, PagerShown p st en t l → ∀ r, pagerRun p st es = .ok r →
    PagerShown p r.1 en (shownText t r.2.flatten) (fun x => shownLed x (l x) r.2.flatten) := by
  intro es
  induction es with
  | nil =>
    intro st page _ _ _ t l hs r hr
    simp only [pagerRun, Except.ok.injEq] at hr
    subst hr
    exact hs
  | cons e es ih =>
    intro st page hc he hp t l hs r hr
    obtain ⟨a, page', ha, hca, _⟩ := pagerStep_spec p hm st page hc e
    have h1 := shown_step p en st page hc e (he e (by simp)) (hp e (by simp)) t l hs a ha
    rw [pagerRun, ha] at hr
    simp only at hr
    cases hb : pagerRun p a.1 es with
    | error x => rw [hb] at hr; simp at hr
    | ok b =>
      rw [hb] at hr
      simp only [Except.ok.injEq] at hr
      subst hr
      have := ih a.1 page' hca (fun e' h => he e' (by simp [h])) (fun e' h => hp e' (by simp [h])) _ _ h1 b hb
      simpa [shownText_append, shownLed_append] using this

/-! ### Rotating messages -/

theorem next_mod {α : Type} (l : List α) (k : Nat) (h : l ≠ []) : next l (k % l.length) = (k + 1) % l.length := by
  cases l with
  | nil => exact absurd rfl h
  | cons a l =>
    simp only [next]
    have hlt : k % (a :: l).length < (a :: l).length := Nat.mod_lt _ (by simp)
    rw [Nat.add_mod k 1]
    by_cases h1 : (a :: l).length = 1
    · rw [h1] at *
      simp [Nat.mod_one]
    · have h0 : (a :: l).length ≠ 0 := by simp
      rw [Nat.mod_eq_of_lt (show 1 < (a :: l).length by omega)]
      by_cases hge : k % (a :: l).length + 1 ≥ (a :: l).length
      · rw [if_pos hge]
        have : k % (a :: l).length + 1 = (a :: l).length := by omega
        rw [this, Nat.mod_self]
      · rw [if_neg hge]
        exact (Nat.mod_eq_of_lt (by omega)).symm

/-- The position belongs to `k` releases. -/
def At {α : Type} (l : List α) (k pos : Nat) : Prop := l ≠ [] → pos = k % l.length

theorem at_next {α : Type} {l : List α} {k pos : Nat} (h : At l k pos) : At l (k + 1) (next l pos) := by
  intro hl
  rw [h hl, next_mod l k hl]

theorem item_at {α : Type} {l : List α} {k pos : Nat} (h : At l k pos) (f : α → RotateEff) :
    item l pos f = .ok (cyclic l k f) := by
  unfold item cyclic
  by_cases hl : l = []
  · subst hl; simp
  · rw [if_neg hl, h hl]
    have : k % l.length < l.length := Nat.mod_lt _ (List.length_pos_iff.2 hl)
    rw [List.getElem?_eq_getElem this]

structure RotateAt (c : Rotate) (k : Nat) (st : RotateState) : Prop where
  messages : At c.messages k st.messages
  release : At c.messagesRelease k st.release
  led : At c.ledColors k st.led
  display : At c.labelColors k st.display
  text : At c.texts k st.text

theorem displays_at (c : Rotate) (k : Nat) (st : RotateState) (h : RotateAt c k st) :
    c.displays st = .ok (expectedDisplay c k) := by
  unfold Rotate.displays expectedDisplay
  rw [item_at h.led]
  simp only
  have hl : (if c.displayColors = [] then c.ledColors else c.displayColors) = c.labelColors := by
    unfold Rotate.labelColors
    by_cases hd : c.displayColors = [] <;> simp [hd]
  cases hlab : c.hasLabel with
  | false => simp
  | true =>
    simp only [Bool.not_true, Bool.false_eq_true, if_false]
    rw [item_at h.text]
    simp only
    rw [item_at h.display]
    simp [hl]

theorem rotateAt_next {c : Rotate} {k : Nat} {st : RotateState} (h : RotateAt c k st) :
    RotateAt c (k + 1) (c.nextStep st) :=
  ⟨at_next h.messages, at_next h.release, at_next h.led, at_next h.display, at_next h.text⟩

theorem rotate_run (c : Rotate) : ∀ (es : List RotateEvent) (k : Nat) (st : RotateState), RotateAt c k st →
    ∃ st', c.run st es = .ok (st', expected c k es) := by
  intro es
  induction es with
  | nil => intro k st _; exact ⟨st, rfl⟩
  | cons e es ih =>
    intro k st h
    cases e with
    | push =>
      obtain ⟨st', hs⟩ := ih k st h
      refine ⟨st', ?_⟩
      rw [Rotate.run, Rotate.step, item_at h.messages]
      simp only [hs, expected]
    | release =>
      obtain ⟨st', hs⟩ := ih (k + 1) _ (rotateAt_next h)
      refine ⟨st', ?_⟩
      rw [Rotate.run, Rotate.step, item_at h.release]
      simp only [displays_at c (k + 1) _ (rotateAt_next h), hs, expected]
    | display =>
      obtain ⟨st', hs⟩ := ih k st h
      refine ⟨st', ?_⟩
      rw [Rotate.run, Rotate.step, displays_at c k st h]
      simp only [hs, expected]

theorem rotateAt_init (c : Rotate) : RotateAt c 0 {} :=
  ⟨fun _ => (Nat.zero_mod _).symm, fun _ => (Nat.zero_mod _).symm, fun _ => (Nat.zero_mod _).symm,
   fun _ => (Nat.zero_mod _).symm, fun _ => (Nat.zero_mod _).symm⟩

theorem expected_presses (c : Rotate) : ∀ (n k j : Nat), j < n →
    (expected c k (presses n))[2 * j]? = some (cyclic c.messages (k + j) .send) := by
  intro n
  induction n with
  | zero => intro k j h; omega
  | succ n ih =>
    intro k j h
    cases j with
    | zero => simp [presses, expected]
    | succ j =>
      rw [show 2 * (j + 1) = 2 * j + 1 + 1 by omega]
      simp only [presses, expected, List.getElem?_cons_succ]
      rw [ih (k + 1) j (by omega)]
      rw [show k + 1 + j = k + (j + 1) by omega]

/-! ### Parameter up/down -/

/-- The value to be sent. -/
theorem push_sent (c : ParamChange) (st : ParamState) (now : Int) (v : Int) (h : (c.push st now).2 = some v) :
    ∃ x, st.value = some x ∧ v = min c.max (max 0 (x + c.offset)) := by
  unfold ParamChange.push at h
  cases hx : st.value with
  | none => rw [hx] at h; simp at h
  | some x =>
    rw [hx] at h
    simp only [Option.some.injEq] at h
    refine ⟨x, rfl, ?_⟩
    subst h
    grind

theorem push_value (c : ParamChange) (st : ParamState) (now : Int) : (c.push st now).1.value = st.value := by
  unfold ParamChange.push
  cases hx : st.value <;> simp [hx]

theorem update_value (c : ParamChange) (st : ParamState) (now : Int) : (c.update st now).1.value = st.value := by
  unfold ParamChange.update
  cases st.pushed with
  | false => simp
  | true =>
    simp only [if_true]
    cases hp : st.period with
    | none => rfl
    | some p =>
      simp only
      by_cases he : (p.exceeded now).1 = true
      · rw [if_pos he, push_value]
      · rw [if_neg he]

theorem step_sent (c : ParamChange) (st : ParamState) (e : ParamEvent) (v : Int) (h : (c.step st e).2 = some v) :
    ∃ x, st.value = some x ∧ v = min c.max (max 0 (x + c.offset)) := by
  cases e with
  | push now => exact push_sent c st now v h
  | release en => cases en <;> simp [ParamChange.step] at h
  | value w => simp [ParamChange.step] at h
  | update now =>
    simp only [ParamChange.step, ParamChange.update] at h
    cases hpu : st.pushed with
    | false => rw [hpu] at h; simp at h
    | true =>
      rw [hpu] at h
      simp only [if_true] at h
      cases hp : st.period with
      | none => rw [hp] at h; simp at h
      | some p =>
        rw [hp] at h
        simp only at h
        by_cases he : (p.exceeded now).1 = true
        · rw [if_pos he] at h
          exact push_sent c { st with pushed := true, period := some (p.exceeded now).2 } now v h
        · rw [if_neg he] at h; simp at h

theorem step_value (c : ParamChange) (st : ParamState) (e : ParamEvent) :
    (c.step st e).1.value = lastValue st.value [e] := by
  cases e with
  | push now => exact push_value c st now
  | release en => cases en <;> rfl
  | value w => rfl
  | update now => exact update_value c st now

theorem lastValue_append : ∀ (a b : List ParamEvent) (v : Option Int), lastValue v (a ++ b) = lastValue (lastValue v a) b := by
  intro a
  induction a with
  | nil => intro b v; rfl
  | cons e a ih => intro b v; cases e <;> simp [lastValue, ih]

theorem run_value (c : ParamChange) : ∀ (es : List ParamEvent) (st : ParamState),
    (c.run st es).2.value = lastValue st.value es := by
  intro es
  induction es with
  | nil => intro st; rfl
  | cons e es ih =>
    intro st
    simp only [ParamChange.run, ih, step_value]
    rw [← lastValue_append]; rfl

theorem param_run_append (c : ParamChange) : ∀ (a b : List ParamEvent) (st : ParamState),
    c.run st (a ++ b) = ((c.run st a).1 ++ (c.run (c.run st a).2 b).1, (c.run (c.run st a).2 b).2) := by
  intro a
  induction a with
  | nil => intro b st; rfl
  | cons e a ih => intro b st; simp [ParamChange.run, ih]

theorem heldSince_append : ∀ (a b : List (ParamEvent × Option Int)) (h : Option Int),
    heldSince h (a ++ b) = heldSince (heldSince h a) b := by
  intro a
  induction a with
  | nil => intro b h; rfl
  | cons e a ih =>
    intro b h
    obtain ⟨e, o⟩ := e
    cases e with
    | push t => cases o <;> simp [heldSince, ih]
    | update t => cases o <;> simp [heldSince, ih]
    | release en => cases en <;> simp [heldSince, ih]
    | value v => simp [heldSince, ih]

/-- The state belongs to the history. -/
structure ParamInv (c : ParamChange) (st : ParamState) (h : Option Int) : Prop where
  period : st.period.map (·.interval) = c.repeatInterval
  pushed : st.pushed = true → ∃ t, h = some t ∧ ∀ p, st.period = some p → t ≤ p.lastReset
  held : ∀ t, h = some t → st.pushed = true

theorem push_inv (c : ParamChange) (st : ParamState) (h : Option Int) (now : Int) (hi : ParamInv c st h) :
    ParamInv c (c.push st now).1 (heldSince h [(.push now, (c.push st now).2)]) ∧
    (∀ v, (c.push st now).2 = some v → ParamInv c (c.push st now).1 (some now)) := by
  unfold ParamChange.push
  cases hx : st.value with
  | none => exact ⟨hi, by simp⟩
  | some x =>
    simp only [heldSince]
    have : ParamInv c { st with pushed := true, period := st.period.map (·.reset now) } (some now) := by
      refine ⟨?_, ?_, fun _ _ => rfl⟩
      · rw [← hi.period]
        cases st.period <;> rfl
      · intro _
        refine ⟨now, rfl, ?_⟩
        intro p hp
        cases hq : st.period with
        | none => simp only [hq, Option.map_none] at hp; exact absurd hp (by simp)
        | some q =>
          simp only [hq, Option.map_some, Option.some.injEq] at hp
          subst hp
          simp [PeriodCounter.reset]
    rw [hx] at this
    exact ⟨this, fun _ _ => this⟩

theorem param_step_inv (c : ParamChange) (hpos : ∀ i, c.repeatInterval = some i → 0 ≤ i) (st : ParamState) (h : Option Int)
    (hi : ParamInv c st h) (e : ParamEvent) : ParamInv c (c.step st e).1 (heldSince h [(e, (c.step st e).2)]) := by
  cases e with
  | push now => exact (push_inv c st h now hi).1
  | release en =>
    cases en with
    | true => exact ⟨hi.period, by simp [ParamChange.step], by simp [heldSince]⟩
    | false => exact hi
  | value v => exact ⟨hi.period, hi.pushed, hi.held⟩
  | update now =>
    simp only [ParamChange.step, ParamChange.update]
    cases hpu : st.pushed with
    | false => simp only [Bool.false_eq_true, if_false, heldSince]; exact hi
    | true =>
      simp only [if_true]
      cases hp : st.period with
      | none => simp only [heldSince]; exact hi
      | some p =>
        simp only
        have hint : c.repeatInterval = some p.interval := by rw [← hi.period, hp]; rfl
        have hp0 := hpos _ hint
        obtain ⟨t, ht, htl⟩ := hi.pushed hpu
        have htp := htl p hp
        by_cases he : (p.exceeded now).1 = true
        · have hex : p.lastReset + p.interval < now ∧ (p.exceeded now).2 = { p with lastReset := now } := by
            unfold PeriodCounter.exceeded at he ⊢
            by_cases hlt : p.lastReset + p.interval < now
            · rw [if_pos hlt]; exact ⟨hlt, rfl⟩
            · rw [if_neg hlt] at he; simp at he
          rw [if_pos he]
          have hi' : ParamInv c { st with pushed := true, period := some (p.exceeded now).2 } h := by
            refine ⟨by simp [hex.2, hint], ?_, fun _ _ => rfl⟩
            intro _
            refine ⟨t, ht, ?_⟩
            intro q hq
            simp only [Option.some.injEq] at hq
            subst hq
            rw [hex.2]
            simp only
            omega
          have key := push_inv c _ h now hi'
          generalize hq : c.push { st with pushed := true, period := some (p.exceeded now).2 } now = q at key ⊢
          obtain ⟨st', o⟩ := q
          cases o with
          | none => exact key.1
          | some v => exact key.2 v rfl
        · rw [if_neg he]
          simp only [heldSince]
          have hex : (p.exceeded now).2 = p := by
            unfold PeriodCounter.exceeded at he ⊢
            by_cases hlt : p.lastReset + p.interval < now
            · rw [if_pos hlt] at he; simp at he
            · rw [if_neg hlt]
          rw [hex, ← hp]
          exact ⟨hi.period, fun _ => hi.pushed hpu, fun _ _ => rfl⟩

theorem param_run_inv (c : ParamChange) (hpos : ∀ i, c.repeatInterval = some i → 0 ≤ i) : ∀ (es : List ParamEvent)
    (st : ParamState) (h : Option Int), ParamInv c st h → ParamInv c (c.run st es).2 (heldSince h (c.run st es).1) := by
  intro es
  induction es with
  | nil => intro st h hi; exact hi
  | cons e es ih =>
    intro st h hi
    have h1 := param_step_inv c hpos st h hi e
    have h2 := ih _ _ h1
    simp only [ParamChange.run]
    rw [← heldSince_append] at h2
    exact h2

theorem param_init_inv (c : ParamChange) : ParamInv c c.init none := by
  refine ⟨?_, by simp [ParamChange.init], by simp⟩
  unfold ParamChange.init
  cases c.repeatInterval <;> rfl

/-- When an update sends. -/
theorem update_sends (c : ParamChange) (st : ParamState) (now : Int) (v : Int) (h : (c.update st now).2 = some v) :
    st.pushed = true ∧ ∃ p, st.period = some p ∧ p.lastReset + p.interval < now := by
  unfold ParamChange.update at h
  cases hpu : st.pushed with
  | false => rw [hpu] at h; simp at h
  | true =>
    rw [hpu] at h
    simp only [if_true] at h
    cases hp : st.period with
    | none => rw [hp] at h; simp at h
    | some p =>
      rw [hp] at h
      simp only at h
      refine ⟨rfl, p, rfl, ?_⟩
      unfold PeriodCounter.exceeded at h
      by_cases hlt : p.lastReset + p.interval < now
      · exact hlt
      · rw [if_neg hlt] at h; simp at h

/-! ### Displays of parameter up/down -/

theorem valueAfter_append : ∀ (a b : List ShowEvent) (v : Option Int), valueAfter v (a ++ b) = valueAfter (valueAfter v a) b := by
  intro a
  induction a with
  | nil => intro b v; rfl
  | cons e a ih => intro b v; cases e <;> simp [valueAfter, ih]

theorem draw_value (c : ParamChange) (st : ShowState) (en : Bool) : (c.draw st en).1.value = st.value := by
  unfold ParamChange.draw
  cases en with
  | false => rfl
  | true => by_cases h : st.last = some st.value <;> simp [h]

theorem show_value (c : ParamChange) : ∀ (es : List ShowEvent) (st : ShowState),
    (c.showRun st es).2.value = valueAfter st.value es := by
  intro es
  induction es with
  | nil => intro st; rfl
  | cons e es ih =>
    intro st
    simp only [ParamChange.showRun, ih]
    cases e with
    | start en => simp [ParamChange.showStep, draw_value, valueAfter]
    | changed v en => simp [ParamChange.showStep, draw_value, valueAfter]
    | update en =>
      simp only [ParamChange.showStep, valueAfter]
      by_cases h : st.lastEnabled ≠ some en
      · rw [if_pos h, draw_value]
      · rw [if_neg h]
    | reset => rfl

theorem showRun_append (c : ParamChange) : ∀ (a b : List ShowEvent) (st : ShowState),
    c.showRun st (a ++ b) = ((c.showRun st a).1 ++ (c.showRun (c.showRun st a).2 b).1, (c.showRun (c.showRun st a).2 b).2) := by
  intro a
  induction a with
  | nil => intro b st; rfl
  | cons e a ih => intro b st; simp [ParamChange.showRun, ih]

/-- What is on the display: the last thing drawn. -/
def lastOf : Option Shown → List Shown → Option Shown
  | s, [] => s
  | _, x :: xs => lastOf (some x) xs

theorem lastOf_append : ∀ (a b : List Shown) (s : Option Shown), lastOf s (a ++ b) = lastOf (lastOf s a) b := by
  intro a
  induction a with
  | nil => intro b s; rfl
  | cons x a ih => intro b s; simp [lastOf, ih]

theorem lastOf_getLast : ∀ (a : List Shown) (s : Option Shown), a ≠ [] → lastOf s a = a.getLast? := by
  intro a
  induction a with
  | nil => intro s h; exact absurd rfl h
  | cons x a ih =>
    intro s _
    cases a with
    | nil => rfl
    | cons y l => simp only [lastOf] at ih ⊢; rw [ih (some x) (by simp)]; simp [List.getLast?_cons_cons]

/-- The display belongs to the cached value. -/
def Cached (c : ParamChange) (st : ShowState) (s : Option Shown) : Prop := ∀ v, st.last = some v → s = some (c.shown v)

theorem draw_cached (c : ParamChange) (st : ShowState) (en : Bool) (s : Option Shown) (h : Cached c st s) :
    Cached c (c.draw st en).1 (lastOf s (c.draw st en).2) ∧
    (en = true → lastOf s (c.draw st en).2 = some (c.shown st.value)) := by
  unfold ParamChange.draw
  cases en with
  | false => exact ⟨h, by simp⟩
  | true =>
    simp only [Bool.not_true, Bool.false_eq_true, if_false, forall_const]
    by_cases hl : st.last = some st.value
    · rw [if_pos hl]; exact ⟨h, h _ hl⟩
    · rw [if_neg hl]
      refine ⟨?_, rfl⟩
      intro v hv
      simp only [Option.some.injEq] at hv
      subst hv
      rfl

theorem step_cached (c : ParamChange) (st : ShowState) (e : ShowEvent) (s : Option Shown) (h : Cached c st s) :
    Cached c (c.showStep st e).1 (lastOf s (c.showStep st e).2) := by
  cases e with
  | start en => exact (draw_cached c st en s h).1
  | changed v en => exact (draw_cached c { st with value := v } en s h).1
  | update en =>
    simp only [ParamChange.showStep]
    by_cases he : st.lastEnabled ≠ some en
    · rw [if_pos he]
      exact (draw_cached c { st with last := none, lastEnabled := some en } en s (by intro v hv; simp at hv)).1
    · rw [if_neg he]; exact h
  | reset => intro v hv; simp [ParamChange.showStep] at hv

theorem run_cached (c : ParamChange) : ∀ (es : List ShowEvent) (st : ShowState) (s : Option Shown), Cached c st s →
    Cached c (c.showRun st es).2 (lastOf s (c.showRun st es).1.flatten) := by
  intro es
  induction es with
  | nil => intro st s h; exact h
  | cons e es ih =>
    intro st s h
    have := ih _ _ (step_cached c st e s h)
    simpa [ParamChange.showRun, lastOf_append] using this

/-- The display shows the current value, and stays so while the action is enabled. -/
theorem follow_run (c : ParamChange) : ∀ (es : List ShowEvent) (st : ShowState) (s : Option Shown), Cached c st s →
    s = some (c.shown st.value) → (∀ e ∈ es, e.enabled = true) →
    lastOf s (c.showRun st es).1.flatten = some (c.shown (c.showRun st es).2.value) := by
  intro es
  induction es with
  | nil => intro st s _ h _; exact h
  | cons e es ih =>
    intro st s hc hs he
    have hc' := step_cached c st e s hc
    have he' := fun e' (h : e' ∈ es) => he e' (by simp [h])
    have : lastOf s (c.showStep st e).2 = some (c.shown (c.showStep st e).1.value) := by
      cases e with
      | start en =>
        have hen : en = true := he (.start en) (by simp)
        simp only [ParamChange.showStep, draw_value]
        exact (draw_cached c st en s hc).2 hen
      | changed v en =>
        have hen : en = true := he (.changed v en) (by simp)
        simp only [ParamChange.showStep, draw_value]
        exact (draw_cached c { st with value := v } en s hc).2 hen
      | update en =>
        have hen : en = true := he (.update en) (by simp)
        simp only [ParamChange.showStep]
        by_cases hx : st.lastEnabled ≠ some en
        · rw [if_pos hx]
          simp only [draw_value]
          exact (draw_cached c { st with last := none, lastEnabled := some en } en s (by intro v hv; simp at hv)).2 hen
        · rw [if_neg hx]; exact hs
      | reset => exact hs
    have := ih _ _ hc' this he'
    simpa [ParamChange.showRun, lastOf_append] using this

end PySwitch.Local
