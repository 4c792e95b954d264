import Verif.Spec.Paged
import Verif.Lemmas.Local

/-!
Lemmas about panels with pages.
-/

namespace PySwitch.Paged
open PySwitch.Local PySwitch.Paged.Spec

theorem pageIndex_eq (id : Id) (ps : List Page) : ∀ i, pageIndex id ps i = (ps.findIdx? fun page => page.id == id).map (· + i) := by
  induction ps with
  | nil => intro i; rfl
  | cons q ps ih =>
    intro i
    rw [pageIndex, List.findIdx?_cons]
    by_cases h : q.id = id
    · simp [h]
    · rw [if_neg h, ih (i + 1)]
      have : (q.id == id) = false := by simpa using h
      rw [this]
      simp only [Bool.false_eq_true, if_false, Option.map_map]
      congr 1
      funext n
      simp only [Function.comp]
      omega

theorem pageIndex_position (p : Pager) (id : Id) : pageIndex id p.pages 0 = position p id := by
  rw [pageIndex_eq, position]
  simp

theorem position_page {p : Pager} {id : Id} {k : Nat} (h : position p id = some k) : ∃ page, p.pages[k]? = some page ∧ page.id = id := by
  rw [position, List.findIdx?_eq_some_iff_getElem] at h
  obtain ⟨hk, h1, _⟩ := h
  exact ⟨p.pages[k], by simp [hk], by simpa using h1⟩

theorem resets_append (a b : List PagerEff) : resets (a ++ b) = resets a ++ resets b := by simp [resets]

theorem resets_proxies (p : Pager) (st : PagerState) (en : Selector → Bool) : ∀ (ids : List Id) (i : Nat) es,
    proxyDisplays p st en ids i = .ok es → resets es = [] := by
  intro ids
  induction ids with
  | nil => intro i es h; cases h; rfl
  | cons a ids ih =>
    intro i es h
    rw [proxyDisplays] at h
    split at h
    · cases h
    · rename_i es1 h1
      split at h
      · cases h
      · rename_i es2 h2
        cases h
        rw [resets_append, ih _ _ h2, List.append_nil]
        unfold proxyDisplay at h1
        split at h1
        · cases h1; rfl
        · split at h1
          · cases h1; rfl
          · split at h1
            · cases h1
            · cases h1; rfl

theorem resets_displays (p : Pager) (st : PagerState) (en : Selector → Bool) (es : List PagerEff) (h : pagerDisplays p st en = .ok es) :
    resets es = [] := by
  unfold pagerDisplays at h
  split at h
  · cases h; rfl
  split at h
  · cases h; rfl
  split at h
  · cases h; rfl
  split at h
  · cases h
  rename_i page hp
  obtain ⟨c, b, hb, _⟩ := pagerLed_ok p st page
  rw [hb] at h
  simp only at h
  split at h
  · cases h
  rename_i es' he
  cases h
  rw [resets_append, resets_append, resets_proxies _ _ _ _ _ _ he]
  unfold pagerLabel
  split
  · split <;> rfl
  · rfl

theorem push_pager (p : Pager) (st : PagerState) (page : Page) (en : Selector → Bool) (h : Current p st page) :
    ∃ r page', pagerPush p st en = .ok r ∧ Current p r.1 page' ∧ r.1.index.toNat = turn p st.index.toNat .pager ∧ resets r.2 = [.reset] := by
  obtain ⟨h0, h1, h2⟩ := h
  have hlt : st.index.toNat < p.pages.length := by
    rw [List.getElem?_eq_some_iff] at h1; exact h1.1
  have hidx : pushIndex p st = (turn p st.index.toNat .pager : Nat) ∧ turn p st.index.toNat .pager < p.pages.length := by
    unfold pushIndex turn Pager.selectIndex
    have hp := pageIndex_position p p.selectPage
    have rot : (if st.index + 1 ≥ p.pages.length then 0 else st.index + 1) = (((st.index.toNat + 1) % p.pages.length : Nat) : Int) ∧
        (st.index.toNat + 1) % p.pages.length < p.pages.length := by
      refine ⟨?_, Nat.mod_lt _ (by omega)⟩
      split
      · have : st.index.toNat + 1 = p.pages.length := by omega
        rw [this, Nat.mod_self]; rfl
      · rw [Nat.mod_eq_of_lt (by omega)]; omega
    by_cases ht : p.selectPage.truthy = true
    · rw [if_pos ht, if_pos ht, hp]
      cases hq : position p p.selectPage with
      | none => exact rot
      | some k =>
        refine ⟨rfl, ?_⟩
        obtain ⟨page', h', _⟩ := position_page hq
        exact (List.getElem?_eq_some_iff.1 h').1
    · rw [if_neg ht, if_neg ht]
      exact rot
  obtain ⟨hi, hl⟩ := hidx
  have hg : p.pages[turn p st.index.toNat .pager]? = some p.pages[turn p st.index.toNat .pager] := by simp [hl]
  have hc : Current p ⟨pushIndex p st, p.pages[turn p st.index.toNat .pager].id⟩ p.pages[turn p st.index.toNat .pager] := by
    refine ⟨by rw [hi]; exact Int.natCast_nonneg _, ?_, rfl⟩
    rw [hi]; exact hg
  obtain ⟨es, he⟩ := pagerDisplays_ok p _ en _ hc
  refine ⟨(⟨pushIndex p st, p.pages[turn p st.index.toNat .pager].id⟩, .resetActions :: es), _, ?_, hc, by rw [hi]; rfl, ?_⟩
  · unfold pagerPush
    rw [if_neg (by omega), if_neg (by omega)]
    have : getPage p.pages (pushIndex p st) = .ok p.pages[turn p st.index.toNat .pager] := by
      unfold getPage
      rw [hi, Int.toNat_natCast, hg]
    rw [this]
    simp only [he]
  · show resets ([PagerEff.resetActions] ++ es) = _
    rw [resets_append, resets_displays _ _ _ _ he]; rfl

theorem push_select (p : Pager) (st : PagerState) (page : Page) (en : Selector → Bool) (id : Id) (h : Current p st page) :
    ∃ r page', proxyPush p st en id = .ok r ∧ Current p r.1 page' ∧ r.1.index.toNat = turn p st.index.toNat (.select id) ∧
      resets r.2 = if position p id = none then [] else [.reset] := by
  obtain ⟨h0, h1, h2⟩ := h
  have hlt : st.index.toNat < p.pages.length := by
    rw [List.getElem?_eq_some_iff] at h1; exact h1.1
  unfold proxyPush
  rw [if_neg (by omega), if_neg (by omega), pageIndex_position]
  cases hq : position p id with
  | none => exact ⟨(st, []), page, rfl, ⟨h0, h1, h2⟩, by simp [turn, hq], by simp [resets]⟩
  | some k =>
    obtain ⟨page', hp, hid⟩ := position_page hq
    have hc : Current p ⟨k, page'.id⟩ page' := ⟨Int.natCast_nonneg _, hp, rfl⟩
    obtain ⟨es, he⟩ := pagerDisplays_ok p _ en _ hc
    have hgp : getPage p.pages (k : Int) = .ok page' := by
      unfold getPage
      rw [Int.toNat_natCast, hp]
    refine ⟨(⟨k, page'.id⟩, .resetActions :: es), page', ?_, hc, by simp [turn, hq], ?_⟩
    · simp only [hgp, he]
    · show resets ([PagerEff.resetActions] ++ es) = _
      rw [resets_append, resets_displays _ _ _ _ he]; rfl

/-- Pushing an action: a page is current again. -/
theorem push_current (p : Pager) (w : World) (page : Page) (h : Current p w.pager page) (a : Act) :
    ∃ w' page', w.push p a = .ok w' ∧ Current p w'.pager page' ∧ w'.pager.index.toNat = turn p w.pager.index.toNat a.kind := by
  unfold World.push
  cases a.kind with
  | pager =>
    obtain ⟨r, page', h1, h2, h3, _⟩ := push_pager p w.pager page (fun _ => true) h
    exact ⟨⟨r.1, w.calls ++ resets r.2⟩, page', by simp only [h1, World.turned], h2, h3⟩
  | select id =>
    obtain ⟨r, page', h1, h2, h3, _⟩ := push_select p w.pager page (fun _ => true) id h
    exact ⟨⟨r.1, w.calls ++ resets r.2⟩, page', by simp only [h1, World.turned], h2, h3⟩
  | other k => exact ⟨⟨w.pager, w.calls ++ [.push k]⟩, page, rfl, h, rfl⟩

theorem release_pager (w : World) (a : Act) : (w.release a).pager = w.pager := by
  unfold World.release; split <;> rfl

theorem pushAll_current (p : Pager) (as : List Act) : ∀ (w : World) (page : Page), Current p w.pager page →
    ∃ w' page', pushAll p w as = .ok w' ∧ Current p w'.pager page' := by
  induction as with
  | nil => intro w page h; exact ⟨w, page, rfl, h⟩
  | cons a as ih =>
    intro w page h
    rw [pushAll]
    split
    · obtain ⟨w', page', h1, h2, _⟩ := push_current p w page h a
      simp only [h1]
      exact ih w' page' h2
    · exact ih w page h

theorem releaseAll_pager (as : List Act) : ∀ w : World, (releaseAll w as).pager = w.pager := by
  induction as with
  | nil => intro w; rfl
  | cons a as ih =>
    intro w
    rw [releaseAll]
    split
    · rw [ih, release_pager]
    · exact ih w

theorem clickAll_current (p : Pager) (as : List Act) : ∀ (w : World) (page : Page), Current p w.pager page →
    ∃ w' page', clickAll p w as = .ok w' ∧ Current p w'.pager page' := by
  induction as with
  | nil => intro w page h; exact ⟨w, page, rfl, h⟩
  | cons a as ih =>
    intro w page h
    rw [clickAll]
    split
    · obtain ⟨w', page', h1, h2, _⟩ := push_current p w page h a
      simp only [h1]
      exact ih (w'.release a) page' (by rw [release_pager]; exact h2)
    · exact ih w page h

theorem checkHold_current (p : Pager) (c : Config) (st : Switch.State) (w : World) (now : Int) (page : Page) (h : Current p w.pager page) :
    ∃ r page', checkHold p c st w now = .ok r ∧ Current p r.2.2.pager page' := by
  unfold checkHold
  simp only
  obtain ⟨w', page', h1, h2⟩ := clickAll_current p c.hold w page h
  split
  · rw [h1]
    exact ⟨_, page', rfl, h2⟩
  · exact ⟨_, page, rfl, h⟩

theorem releaseActions_current (p : Pager) (c : Config) (st : Switch.State) (w : World) (page : Page) (h : Current p w.pager page) :
    ∃ r page', releaseActions p c st w = .ok r ∧ Current p r.2.pager page' := by
  unfold releaseActions
  simp only
  split
  · exact ⟨_, page, rfl, by rw [releaseAll_pager]; exact h⟩
  · obtain ⟨w', page', h1, h2⟩ := clickAll_current p c.actions w page h
    rw [h1]
    exact ⟨_, page', rfl, h2⟩

theorem release_current (p : Pager) (c : Config) (st : Switch.State) (w : World) (now : Int) (page : Page) (h : Current p w.pager page) :
    ∃ r page', release p c st w now = .ok r ∧ Current p r.2.pager page' := by
  unfold release
  split
  · exact releaseActions_current p c st w page h
  split
  · exact ⟨_, page, rfl, h⟩
  obtain ⟨⟨b, st', w'⟩, page', h1, h2⟩ := checkHold_current p c st w now page h
  rw [h1]
  cases b
  · simp only
    split
    · exact ⟨_, page', rfl, h2⟩
    · exact releaseActions_current p c st' w' page' h2
  · exact ⟨_, page', rfl, h2⟩

theorem pushed_current (p : Pager) (c : Config) (st : Switch.State) (w : World) (now : Int) (page : Page) (h : Current p w.pager page) :
    ∃ r page', pushed p c st w now = .ok r ∧ Current p r.2.pager page' := by
  unfold pushed
  split
  · exact ⟨_, page, rfl, h⟩
  simp only
  split
  · obtain ⟨w', page', h1, h2⟩ := pushAll_current p c.actions w page h
    rw [h1]
    exact ⟨_, page', rfl, h2⟩
  · exact ⟨_, page, rfl, h⟩

theorem process_current (p : Pager) (c : Config) (st : Switch.State) (w : World) (down : Bool) (now : Int) (page : Page)
    (h : Current p w.pager page) : ∃ r page', process p c st w down now = .ok r ∧ Current p r.2.pager page' := by
  unfold process
  split
  · split
    · exact release_current p c _ w now page h
    · exact ⟨_, page, rfl, h⟩
  split
  · obtain ⟨⟨b, st', w'⟩, page', h1, h2⟩ := checkHold_current p c st w now page h
    rw [h1]
    cases b
    · exact pushed_current p c st' w' now page' h2
    · exact ⟨_, page', rfl, h2⟩
  · exact pushed_current p c st w now page h

theorem step_current (p : Pager) (cs : List Config) (s : Panel) (e : Sample) (page : Page) (h : Current p s.world.pager page) :
    ∃ s' page', s.step p cs e = .ok s' ∧ Current p s'.world.pager page' := by
  unfold Panel.step
  split
  · rename_i c st _ _
    obtain ⟨⟨st', w'⟩, page', h1, h2⟩ := process_current p c st s.world e.down e.now page h
    rw [h1]
    exact ⟨_, page', rfl, h2⟩
  · exact ⟨s, page, rfl, h⟩

theorem run_current (p : Pager) (cs : List Config) (es : List Sample) : ∀ (s : Panel) (page : Page), Current p s.world.pager page →
    ∃ s' page', s.run p cs es = .ok s' ∧ Current p s'.world.pager page' := by
  induction es with
  | nil => intro s page h; exact ⟨s, page, rfl, h⟩
  | cons e es ih =>
    intro s page h
    obtain ⟨s', page', h1, h2⟩ := step_current p cs s e page h
    rw [Panel.run, h1]
    exact ih s' page' h2

/-! ### Clicks -/

theorem _root_.PySwitch.Paged.Spec.Clicks.append {k : Nat} {a b : List Call} (ha : Clicks k a) (hb : Clicks k b) : Clicks k (a ++ b) := by
  induction ha with
  | nil => exact hb
  | click cs _ ih => exact .click _ ih
  | other c cs h1 h2 _ ih => exact .other c _ h1 h2 ih

theorem clicks_resets (k : Nat) (es : List PagerEff) : Clicks k (resets es) := by
  induction es with
  | nil => exact .nil
  | cons e es ih =>
    by_cases he : e = .resetActions
    · subst he
      exact .other .reset _ (by simp) (by simp) ih
    · have : resets (e :: es) = resets es := by simp [resets, he]
      rw [this]; exact ih

theorem turned_calls {w w' : World} {x : Except Err (PagerState × List PagerEff)} (h : w.turned x = .ok w') (k : Nat) :
    ∃ d, w'.calls = w.calls ++ d ∧ Clicks k d := by
  cases x with
  | error e => cases h
  | ok r => cases h; exact ⟨resets r.2, rfl, clicks_resets k _⟩

theorem clickAll_clicks (p : Pager) (k : Nat) (as : List Act) : ∀ (w w' : World), clickAll p w as = .ok w' →
    ∃ d, w'.calls = w.calls ++ d ∧ Clicks k d := by
  induction as with
  | nil => intro w w' h; cases h; exact ⟨[], by simp, .nil⟩
  | cons a as ih =>
    intro w w' h
    rw [clickAll] at h
    split at h
    · split at h
      · cases h
      · rename_i w1 h1
        obtain ⟨d, hd, hk⟩ := ih _ _ h
        have : ∃ d', (w1.release a).calls = w.calls ++ d' ∧ Clicks k d' := by
          unfold World.push at h1
          unfold World.release
          cases ha : a.kind with
          | pager => rw [ha] at h1; exact turned_calls h1 k
          | select id => rw [ha] at h1; exact turned_calls h1 k
          | other j =>
            rw [ha] at h1
            cases h1
            refine ⟨[.push j, .release j], by simp, ?_⟩
            by_cases hj : j = k
            · subst hj; exact .click _ .nil
            · exact .other _ _ (by simpa using hj) (by simp) (.other _ _ (by simp) (by simpa using hj) .nil)
        obtain ⟨d', h', hk'⟩ := this
        exact ⟨d' ++ d, by rw [hd, h', List.append_assoc], hk'.append hk⟩
    · exact ih _ _ h

/-- None of the actions is number `k`. -/
def Free (k : Nat) (as : List Act) : Prop := ∀ a ∈ as, a.kind ≠ .other k

theorem pushAll_free (p : Pager) (k : Nat) (as : List Act) (hf : Free k as) : ∀ (w w' : World), pushAll p w as = .ok w' →
    ∃ d, w'.calls = w.calls ++ d ∧ Clicks k d := by
  induction as with
  | nil => intro w w' h; cases h; exact ⟨[], by simp, .nil⟩
  | cons a as ih =>
    intro w w' h
    have hf' : Free k as := fun b hb => hf b (List.mem_cons_of_mem _ hb)
    rw [pushAll] at h
    split at h
    · split at h
      · cases h
      · rename_i w1 h1
        obtain ⟨d, hd, hk⟩ := ih hf' _ _ h
        have : ∃ d', w1.calls = w.calls ++ d' ∧ Clicks k d' := by
          unfold World.push at h1
          cases ha : a.kind with
          | pager => rw [ha] at h1; exact turned_calls h1 k
          | select id => rw [ha] at h1; exact turned_calls h1 k
          | other j =>
            rw [ha] at h1
            cases h1
            have hj : j ≠ k := fun e => hf a (List.mem_cons_self ..) (by rw [ha, e])
            exact ⟨[.push j], rfl, .other _ _ (by simpa using hj) (by simp) .nil⟩
        obtain ⟨d', h', hk'⟩ := this
        exact ⟨d' ++ d, by rw [hd, h', List.append_assoc], hk'.append hk⟩
    · exact ih hf' _ _ h

theorem releaseAll_free (k : Nat) (as : List Act) (hf : Free k as) : ∀ (w : World),
    ∃ d, (releaseAll w as).calls = w.calls ++ d ∧ Clicks k d := by
  induction as with
  | nil => intro w; exact ⟨[], by simp [releaseAll], .nil⟩
  | cons a as ih =>
    intro w
    have hf' : Free k as := fun b hb => hf b (List.mem_cons_of_mem _ hb)
    rw [releaseAll]
    split
    · obtain ⟨d, hd, hk⟩ := ih hf' (w.release a)
      have : ∃ d', (w.release a).calls = w.calls ++ d' ∧ Clicks k d' := by
        unfold World.release
        cases ha : a.kind with
        | pager => exact ⟨[], by simp, .nil⟩
        | select id => exact ⟨[], by simp, .nil⟩
        | other j =>
          have hj : j ≠ k := fun e => hf a (List.mem_cons_self ..) (by rw [ha, e])
          exact ⟨[.release j], rfl, .other _ _ (by simp) (by simpa using hj) .nil⟩
      obtain ⟨d', h', hk'⟩ := this
      exact ⟨d' ++ d, by rw [hd, h', List.append_assoc], hk'.append hk⟩
    · exact ih hf' _

theorem checkHold_clicks (p : Pager) (k : Nat) (c : Config) (st : Switch.State) (w : World) (now : Int) (r) (h : checkHold p c st w now = .ok r) :
    ∃ d, r.2.2.calls = w.calls ++ d ∧ Clicks k d := by
  unfold checkHold at h
  simp only at h
  split at h
  · split at h
    · cases h
    · rename_i w' hw
      cases h
      exact clickAll_clicks p k _ _ _ hw
  · cases h; exact ⟨[], by simp, .nil⟩

theorem releaseActions_clicks (p : Pager) (k : Nat) (c : Config) (hc : c.hold = [] → Free k c.actions) (st : Switch.State) (w : World) (r)
    (h : releaseActions p c st w = .ok r) : ∃ d, r.2.calls = w.calls ++ d ∧ Clicks k d := by
  unfold releaseActions at h
  simp only at h
  split at h
  · rename_i hh
    cases h
    exact releaseAll_free k _ (hc hh) _
  · split at h
    · cases h
    · rename_i w' hw
      cases h
      exact clickAll_clicks p k _ _ _ hw

theorem release_clicks (p : Pager) (k : Nat) (c : Config) (hc : c.hold = [] → Free k c.actions) (st : Switch.State) (w : World) (now : Int) (r)
    (h : release p c st w now = .ok r) : ∃ d, r.2.calls = w.calls ++ d ∧ Clicks k d := by
  unfold release at h
  split at h
  · exact releaseActions_clicks p k c hc _ _ _ h
  split at h
  · cases h; exact ⟨[], by simp, .nil⟩
  split at h
  · cases h
  · rename_i st' w' hw
    cases h
    exact checkHold_clicks p k c st w now _ hw
  · rename_i st' w' hw
    obtain ⟨d, hd, hk⟩ := checkHold_clicks p k c st w now _ hw
    split at h
    · cases h; exact ⟨d, hd, hk⟩
    · obtain ⟨d', hd', hk'⟩ := releaseActions_clicks p k c hc _ _ _ h
      exact ⟨d ++ d', by rw [hd', hd, List.append_assoc], hk.append hk'⟩

theorem pushed_clicks (p : Pager) (k : Nat) (c : Config) (hc : c.hold = [] → Free k c.actions) (st : Switch.State) (w : World) (now : Int) (r)
    (h : pushed p c st w now = .ok r) : ∃ d, r.2.calls = w.calls ++ d ∧ Clicks k d := by
  unfold pushed at h
  split at h
  · cases h; exact ⟨[], by simp, .nil⟩
  simp only at h
  split at h
  · rename_i hh
    split at h
    · cases h
    · rename_i w' hw
      cases h
      exact pushAll_free p k _ (hc hh) _ _ hw
  · cases h; exact ⟨[], by simp, .nil⟩

theorem process_clicks (p : Pager) (k : Nat) (c : Config) (hc : c.hold = [] → Free k c.actions) (st : Switch.State) (w : World) (down : Bool)
    (now : Int) (r) (h : process p c st w down now = .ok r) : ∃ d, r.2.calls = w.calls ++ d ∧ Clicks k d := by
  unfold process at h
  split at h
  · split at h
    · exact release_clicks p k c hc _ _ _ _ h
    · cases h; exact ⟨[], by simp, .nil⟩
  split at h
  · split at h
    · cases h
    · rename_i st' w' hw
      cases h
      exact checkHold_clicks p k c st w now _ hw
    · rename_i st' w' hw
      obtain ⟨d, hd, hk⟩ := checkHold_clicks p k c st w now _ hw
      obtain ⟨d', hd', hk'⟩ := pushed_clicks p k c hc _ _ _ _ h
      exact ⟨d ++ d', by rw [hd', hd, List.append_assoc], hk.append hk'⟩
  · exact pushed_clicks p k c hc _ _ _ _ h

theorem run_clicks (p : Pager) (k : Nat) (cs : List Config) (hc : ∀ c ∈ cs, c.hold = [] → Free k c.actions) (es : List Sample) :
    ∀ (s s' : Panel), s.run p cs es = .ok s' → ∃ d, s'.world.calls = s.world.calls ++ d ∧ Clicks k d := by
  induction es with
  | nil => intro s s' h; cases h; exact ⟨[], by simp, .nil⟩
  | cons e es ih =>
    intro s s' h
    rw [Panel.run] at h
    split at h
    · cases h
    rename_i s1 h1
    obtain ⟨d, hd, hk⟩ := ih _ _ h
    unfold Panel.step at h1
    split at h1
    · rename_i c st hcs _
      split at h1
      · cases h1
      · rename_i st' w' hp
        cases h1
        obtain ⟨d', hd', hk'⟩ := process_clicks p k c (hc c (List.mem_of_getElem? hcs)) _ _ _ _ _ hp
        exact ⟨d' ++ d, by rw [hd]; simp only; rw [hd', List.append_assoc], hk'.append hk⟩
    · cases h1; exact ⟨d, hd, hk⟩

end PySwitch.Paged
