import Verif.Lemmas.Local
/-
C49-C52, C73: the local actions: pager, rotating messages, parameter up/down.
-/
namespace PySwitch.Props
open PySwitch.Local

/-! ### C49 -/

/-- C49. After any history of pushes of the pager and of its direct selection switches, nothing has failed and the
current page is one of the configured pages. (`hasMappings`: see `C49_mappings_raise`.) -/
theorem C49_valid_partial (p : Pager) (hne : p.pages ≠ []) (hm : p.hasMappings = false) (es : List PagerEvent) :
    ∃ st effs page, pagerRun p (pagerInit p) es = .ok (st, effs) ∧ page ∈ p.pages ∧ Current p st page := by
  obtain ⟨page, h⟩ := pagerInit_current p hne
  obtain ⟨r, page', h1, h2, _⟩ := pagerRun_spec p hm es _ page h
  exact ⟨r.1, r.2, page', h1, List.mem_of_getElem? h2.2.1, h2⟩

/-- C49. A rotating pager: after `k` pushes (however many updates are between them), page number `k` modulo the number of
pages is current. -/
theorem C49_rotate (p : Pager) (hne : p.pages ≠ []) (hm : p.hasMappings = false) (hr : p.selectPage = .none)
    (es : List PagerEvent) (hown : ∀ e ∈ es, e.own = true) :
    ∃ st effs page, pagerRun p (pagerInit p) es = .ok (st, effs) ∧ Current p st page ∧
      p.pages[pushes es % p.pages.length]? = some page := by
  obtain ⟨page, h⟩ := pagerInit_current p hne
  obtain ⟨r, page', h1, h2, h3⟩ := pagerRun_spec p hm es _ page h
  refine ⟨r.1, r.2, page', h1, h2, ?_⟩
  have hsel : p.selectIndex = none := by simp [Pager.selectIndex, hr, Id.truthy]
  have key : ∀ (es : List PagerEvent) (i : Nat), (∀ e ∈ es, e.own = true) → i < p.pages.length →
      es.foldl (nextIndex p) i = (i + pushes es) % p.pages.length := by
    intro es
    induction es with
    | nil => intro i _ hi; simp [pushes, Nat.mod_eq_of_lt hi]
    | cons e es ih =>
      intro i ho hi
      have ho' := fun e' (he' : e' ∈ es) => ho e' (by simp [he'])
      cases e with
      | push en =>
        simp only [List.foldl_cons, nextIndex, hsel, Option.getD_none, pushes]
        rw [ih _ ho' (Nat.mod_lt _ (by omega)), Nat.mod_add_mod]
        congr 1
        omega
      | proxy j en => exact absurd (ho (.proxy j en) (by simp)) (by simp [PagerEvent.own])
      | update => simp only [List.foldl_cons, nextIndex, pushes]; exact ih i ho' hi
  have hk := key es 0 hown (List.length_pos_iff.2 hne)
  simp only [Nat.zero_add] at hk
  have h3' : r.1.index.toNat = pushes es % p.pages.length := by rw [h3]; exact hk
  rw [← h3']
  exact h2.2.1

/-- C49. Thus every page is reached by fewer than n pushes, and n pushes return to the first one. -/
theorem C49_visits_all (p : Pager) (hm : p.hasMappings = false) (hr : p.selectPage = .none) (page : Page)
    (hp : page ∈ p.pages) (en : Selector → Bool) :
    (∃ k, k < p.pages.length ∧ ∃ st effs,
      pagerRun p (pagerInit p) (List.replicate k (.push en)) = .ok (st, effs) ∧ Current p st page) ∧
    (∃ st effs first, pagerRun p (pagerInit p) (List.replicate p.pages.length (.push en)) = .ok (st, effs) ∧
      Current p st first ∧ p.pages.head? = some first) := by
  have hne : p.pages ≠ [] := fun h => by simp [h] at hp
  have hown : ∀ k, ∀ e ∈ List.replicate k (PagerEvent.push en), e.own = true := by
    intro k e he
    rw [List.mem_replicate] at he
    rw [he.2]; rfl
  have hpu : ∀ k, pushes (List.replicate k (PagerEvent.push en)) = k := by
    intro k
    induction k with
    | zero => rfl
    | succ k ih => simp [List.replicate_succ, pushes, ih]
  constructor
  · obtain ⟨k, hk, he⟩ := List.getElem_of_mem hp
    obtain ⟨st, effs, pg, h1, h2, h3⟩ := C49_rotate p hne hm hr (List.replicate k (.push en)) (hown k)
    rw [hpu, Nat.mod_eq_of_lt hk, List.getElem?_eq_getElem hk, Option.some.injEq, he] at h3
    subst h3
    exact ⟨k, hk, st, effs, h1, h2⟩
  · obtain ⟨st, effs, pg, h1, h2, h3⟩ := C49_rotate p hne hm hr (List.replicate p.pages.length (.push en)) (hown _)
    rw [hpu, Nat.mod_self] at h3
    exact ⟨st, effs, pg, h1, h2, by rw [List.head?_eq_getElem?]; exact h3⟩

/-- C49. A direct selection switch selects the page it is configured for, if there is such a page, after any history. -/
theorem C49_proxy (p : Pager) (hm : p.hasMappings = false) (es : List PagerEvent) (j : Nat) (id : Id)
    (hj : p.proxies[j]? = some id) (hk : ∃ page ∈ p.pages, page.id = id) (en : Selector → Bool) :
    ∃ st effs, pagerRun p (pagerInit p) (es ++ [.proxy j en]) = .ok (st, effs) ∧ st.id = id := by
  have hne : p.pages ≠ [] := by rintro h; rw [h] at hk; simp at hk
  obtain ⟨page, h⟩ := pagerInit_current p hne
  obtain ⟨r, page', h1, h2, h3⟩ := pagerRun_spec p hm (es ++ [.proxy j en]) _ page h
  refine ⟨r.1, r.2, h1, ?_⟩
  obtain ⟨k, hk'⟩ := pageIndex_known p.pages 0 hk
  obtain ⟨pg, h4, h5⟩ := pageIndex_get hk'
  simp only [List.foldl_append, List.foldl_cons, List.foldl_nil, nextIndex, hj, Option.bind_some, hk',
    Option.getD_some] at h3
  have := h2.2.1
  rw [h3, h4, Option.some.injEq] at this
  rw [h2.2.2, ← this, h5]

/-- C49 (partial). A pager with a page to select selects it, if there is such a page. Missing: ids which are falsy in
Python (0, empty string), see `C49_zero_id`; for ids of no page see `C49_unknown_id`. -/
theorem C49_direct_partial (p : Pager) (hm : p.hasMappings = false) (es : List PagerEvent) (ht : p.selectPage.truthy = true)
    (hk : ∃ page ∈ p.pages, page.id = p.selectPage) (en : Selector → Bool) :
    ∃ st effs, pagerRun p (pagerInit p) (es ++ [.push en]) = .ok (st, effs) ∧ st.id = p.selectPage := by
  have hne : p.pages ≠ [] := by rintro h; rw [h] at hk; simp at hk
  obtain ⟨page, h⟩ := pagerInit_current p hne
  obtain ⟨r, page', h1, h2, h3⟩ := pagerRun_spec p hm (es ++ [.push en]) _ page h
  refine ⟨r.1, r.2, h1, ?_⟩
  obtain ⟨k, hk'⟩ := pageIndex_known p.pages 0 hk
  obtain ⟨pg, h4, h5⟩ := pageIndex_get hk'
  have hs : p.selectIndex = some k := by simp [Pager.selectIndex, ht, hk']
  simp only [List.foldl_append, List.foldl_cons, List.foldl_nil, nextIndex, hs, Option.getD_some] at h3
  have := h2.2.1
  rw [h3, h4, Option.some.injEq] at this
  rw [h2.2.2, ← this, h5]

/-- Three pages, the switch of the pager selects the first one, the others have their own switches. -/
def threePages : Pager :=
  { pages := [⟨.num 1, some 100, some "A"⟩, ⟨.num 2, some 200, some "B"⟩, ⟨.str "x", none, some "C"⟩],
    selectPage := .num 1, proxies := [.num 2, .str "x"] }

example : threePages.pages ≠ [] ∧ threePages.hasMappings = false ∧ threePages.selectPage.truthy = true ∧
    (∃ page ∈ threePages.pages, page.id = threePages.selectPage) := by decide
example : (pagerRun threePages (pagerInit threePages) [.proxy 1 (fun _ => true), .push (fun _ => true), .update,
    .proxy 0 (fun _ => true)]).map (·.1) = .ok ⟨1, .num 2⟩ := by decide +kernel
example : (pagerRun { threePages with selectPage := .none } (pagerInit threePages) [.push (fun _ => true), .update,
    .push (fun _ => true)]).map (·.1) = .ok ⟨2, .str "x"⟩ := by decide +kernel

/-- C49 does not hold for a page with the id 0 (or an empty string): a pager configured to select it rotates instead
(pager.py:59). -/
theorem C49_zero_id : ∃ (p : Pager) (en : Selector → Bool), (∃ page ∈ p.pages, page.id = p.selectPage) ∧
    p.selectPage ≠ .none ∧
    (pagerRun p (pagerInit p) [.push en]).map (fun r => decide (r.1.id = p.selectPage)) = .ok false :=
  ⟨{ pages := [⟨.num 0, none, none⟩, ⟨.num 1, none, none⟩], selectPage := .num 0 }, fun _ => true, by decide +kernel⟩

/-- C49: a pager configured to select a page which does not exist rotates through the pages. -/
theorem C49_unknown_id : ∃ (p : Pager) (en : Selector → Bool), (∀ page ∈ p.pages, page.id ≠ p.selectPage) ∧
    p.selectPage ≠ .none ∧
    (pagerRun p (pagerInit p) [.push en]).map (·.1.index) = .ok 1 :=
  ⟨{ pages := [⟨.num 1, none, none⟩, ⟨.num 2, none, none⟩], selectPage := .num 3 }, fun _ => true, by decide +kernel⟩

/-- C49: a pager with mappings raises an exception at its first update, as `Callback.init` has not been called. -/
theorem C49_mappings_raise (p : Pager) (hm : p.hasMappings = true) (es : List PagerEvent) :
    pagerRun p (pagerInit p) (.update :: es) = .error .attributeError := by
  simp [pagerRun, pagerStep, hm]

/-! ### C50 -/

/-- C50. After any history, an action guarded by the pager is enabled exactly if its id is the one of the current page. -/
theorem C50_enabled (p : Pager) (hne : p.pages ≠ []) (hm : p.hasMappings = false) (es : List PagerEvent) :
    ∃ st effs page, pagerRun p (pagerInit p) es = .ok (st, effs) ∧ page ∈ p.pages ∧ Current p st page ∧
      ∀ a : Id, pagerEnabled st a = true ↔ a = page.id := by
  obtain ⟨st, effs, page, h1, h2, h3⟩ := C49_valid_partial p hne hm es
  refine ⟨st, effs, page, h1, h2, h3, ?_⟩
  intro a
  simp [pagerEnabled, h3.2.2]

/-- C50. Hence actions with different ids are never enabled together. -/
theorem C50_exclusive (st : PagerState) (a b : Id) (ha : pagerEnabled st a = true) (hb : pagerEnabled st b = true) :
    a = b := by
  simp only [pagerEnabled, beq_iff_eq] at ha hb
  rw [ha, hb]

/-- C50. In every state of a history exactly the pages with the current id are on: for each of the pages, an action with
its id is enabled for some history (here for a rotating pager), so no action is unreachable. -/
theorem C50_reachable (p : Pager) (hm : p.hasMappings = false) (hr : p.selectPage = .none) (page : Page)
    (hp : page ∈ p.pages) : ∃ es st effs, pagerRun p (pagerInit p) es = .ok (st, effs) ∧
      pagerEnabled st page.id = true := by
  obtain ⟨⟨k, _, st, effs, h1, h2⟩, _⟩ := C49_visits_all p hm hr page hp (fun _ => true)
  exact ⟨_, st, effs, h1, by simp [pagerEnabled, h2.2.2]⟩

example : (pagerRun threePages (pagerInit threePages) [.proxy 0 (fun _ => true)]).map
    (fun r => (pagerEnabled r.1 (.num 2), pagerEnabled r.1 (.num 1))) = .ok (true, false) := by decide +kernel

/-! ### C73 -/

/-- What the switches of a pager with pages of different ids have to show when `page` is current: the pager's label shows
its text; a rotating pager has its color; direct selection switches have the color of their page, and are lit exactly
if it is the current one. -/
structure ShowsPage (p : Pager) (page : Page) (enabled : Selector → Bool) (text : Option String)
    (led : Selector → Option (Nat × Brightness)) : Prop where
  text : p.hasLabel = true → text = some (page.text.getD "")
  rotating : p.selectPage = .none → led .pager = some (page.color.getD white, .rotating)
  direct : p.selectPage.truthy = true → ∀ sel ∈ p.pages, sel.id = p.selectPage →
    led .pager = some (sel.color.getD white, if sel.id = page.id then .on else .off)
  proxy : ∀ (j : Nat) (id : Id) (sel : Page), p.proxies[j]? = some id → enabled (.proxy j) = true → sel ∈ p.pages →
    sel.id = id → led (.proxy j) = some (sel.color.getD white, if sel.id = page.id then .on else .off)

/-- C73 (partial). If the displays are drawn after the start (`first`), then after any history of events, during which the
pager is enabled, the label and the LEDs show the current page. (`enabled`: the direct selection switches which are
enabled all the time.) Missing: a pager which is disabled, see `C73_stale`. -/
theorem C73_shows_partial (p : Pager) (hne : p.pages ≠ []) (hm : p.hasMappings = false)
    (hd : (p.pages.map (·.id)).Nodup) (enabled : Selector → Bool) (es : List PagerEvent)
    (he : ∀ e ∈ es, e.enabledFor .pager = true)
    (hp : ∀ e ∈ es, ∀ j, enabled (.proxy j) = true → e.enabledFor (.proxy j) = true)
    (hen : enabled .pager = true) :
    ∃ first st effs page, pagerDisplays p (pagerInit p) enabled = .ok first ∧
      pagerRun p (pagerInit p) es = .ok (st, effs) ∧ Current p st page ∧
      ShowsPage p page enabled (shownText none (first ++ effs.flatten))
        (fun x => shownLed x none (first ++ effs.flatten)) := by
  obtain ⟨page, h⟩ := pagerInit_current p hne
  obtain ⟨first, hf, hall⟩ := pagerDisplays_shown p _ enabled page h hen
  obtain ⟨r, page', h1, h2, _⟩ := pagerRun_spec p hm es _ page h
  have hs := shown_run p hm enabled es _ page h he hp _ _ (hall none (fun _ => none)) r h1
  refine ⟨first, r.1, r.2, page', hf, h1, h2, ?_⟩
  have inj : ∀ (i j : Nat) (hi : i < p.pages.length) (hj : j < p.pages.length), p.pages[i].id = p.pages[j].id → i = j := by
    intro i j hi hj e
    have hnd := List.pairwise_iff_getElem.1 hd
    apply Classical.byContradiction
    intro hne'
    rcases Nat.lt_or_gt_of_ne hne' with hlt | hlt
    · exact hnd i j (by simpa using hi) (by simpa using hj) hlt (by simpa using e)
    · exact hnd j i (by simpa using hj) (by simpa using hi) hlt (by simpa using e.symm)
  have idx : ∀ (k : Nat) (sel : Page), p.pages[k]? = some sel → ((k : Int) = r.1.index ↔ sel.id = page'.id) := by
    intro k sel hk
    have hc := h2.2.1
    rw [List.getElem?_eq_some_iff] at hk hc
    obtain ⟨hk1, hk2⟩ := hk
    obtain ⟨hc1, hc2⟩ := hc
    constructor
    · intro e
      have : r.1.index.toNat = k := by omega
      subst this
      rw [← hk2, ← hc2]
    · intro e
      apply Classical.byContradiction
      intro hne'
      have hne'' : k ≠ r.1.index.toNat := by have := h2.1; omega
      exact hne'' (inj k r.1.index.toNat hk1 hc1 (by rw [hk2, hc2, e]))
  have only : ∀ (k : Nat) (a b : Page), p.pages[k]? = some a → b ∈ p.pages → a.id = b.id → a = b := by
    intro k a b ha hb hab
    obtain ⟨j, hj, hj'⟩ := List.getElem_of_mem hb
    rw [List.getElem?_eq_some_iff] at ha
    obtain ⟨hk1, hk2⟩ := ha
    have := inj k j hk1 hj (by rw [hk2, hj', hab])
    subst this
    rw [← hk2, ← hj']
  have ite_congr' : ∀ (k : Nat) (sel : Page), p.pages[k]? = some sel →
      (if (k : Int) = r.1.index then Brightness.on else .off) = if sel.id = page'.id then .on else .off := by
    intro k sel hk
    by_cases e : (k : Int) = r.1.index
    · rw [if_pos e, if_pos ((idx k sel hk).1 e)]
    · rw [if_neg e, if_neg (fun h => e ((idx k sel hk).2 h))]
  refine ⟨?_, ?_, ?_, ?_⟩
  · intro hl
    rw [shownText_append]
    exact hs.text hl page' h2
  · intro hr
    have hsel : p.selectIndex = none := by simp [Pager.selectIndex, hr, Id.truthy]
    show shownLed .pager none _ = _
    rw [shownLed_append]
    exact hs.rotating hsel page' h2
  · intro ht sel hsel hid
    obtain ⟨k, hk'⟩ := pageIndex_known p.pages 0 ⟨sel, hsel, hid⟩
    obtain ⟨pg, h4, h5⟩ := pageIndex_get hk'
    have hsi : p.selectIndex = some k := by simp [Pager.selectIndex, ht, hk']
    have : pg = sel := only k pg sel h4 hsel (by rw [h5, hid])
    subst this
    show shownLed .pager none _ = _
    rw [shownLed_append, ← ite_congr' k pg h4]
    exact hs.direct k pg hsi h4
  · intro j id sel hj hej hsel hid
    obtain ⟨k, hk'⟩ := pageIndex_known p.pages 0 ⟨sel, hsel, hid⟩
    obtain ⟨pg, h4, h5⟩ := pageIndex_get hk'
    have : pg = sel := only k pg sel h4 hsel (by rw [h5, hid])
    subst this
    show shownLed (.proxy j) none _ = _
    rw [shownLed_append, ← ite_congr' k pg h4]
    exact hs.proxy j id k pg hj hej hk' h4

example : (threePages.pages.map (·.id)).Nodup := by decide

/-- C73 does not hold while the pager itself is disabled: pushing a direct selection switch changes the page, but no switch
is redrawn (pager.py:131), so the switch of the old page stays lit. -/
theorem C73_stale : ∃ (p : Pager) (en : Selector → Bool), en (.proxy 0) = true ∧ en (.proxy 1) = true ∧
    (pagerRun p (pagerInit p) [.proxy 0 (fun _ => true), .proxy 1 en]).map (fun r => (r.1.id,
      shownLed (.proxy 0) none r.2.flatten, shownLed (.proxy 1) none r.2.flatten)) =
    .ok (.str "x", some (200, .on), some (white, .off)) :=
  ⟨threePages, fun s => s ≠ .pager, by decide +kernel⟩

/-! ### C51 -/

/-- C51. Over any history of presses, releases and display updates there is no exception, and each press sends message
number k modulo the number of messages, where k is the number of releases before; releases likewise; texts and colors
shown are number k as well. -/
theorem C51_rotates (c : Rotate) (es : List RotateEvent) : ∃ st, c.run {} es = .ok (st, expected c 0 es) :=
  rotate_run c es 0 {} (rotateAt_init c)

/-- C51. Pressing and releasing n times, press number k (from 0) sends exactly message number k modulo the number of
messages. -/
theorem C51_kth_press (c : Rotate) (hne : c.messages ≠ []) (n k : Nat) (hk : k < n) :
    ∃ st effs m, c.run {} (presses n) = .ok (st, effs) ∧ c.messages[k % c.messages.length]? = some m ∧
      effs[2 * k]? = some [.send m] := by
  obtain ⟨st, h⟩ := C51_rotates c (presses n)
  have hlt : k % c.messages.length < c.messages.length := Nat.mod_lt _ (List.length_pos_iff.2 hne)
  refine ⟨st, _, c.messages[k % c.messages.length], h, List.getElem?_eq_getElem hlt, ?_⟩
  rw [expected_presses c n 0 k hk]
  simp [cyclic, List.getElem?_eq_getElem hlt]

/-- Three messages, two colors, one text. -/
def rotateExample : Rotate :=
  { messages := [[176, 80, 0], [176, 80, 1], [176, 80, 2]], messagesRelease := [[176, 81, 0], [176, 81, 1]],
    ledColors := [1, 2], texts := ["a"] }

example : (rotateExample.run {} (presses 5)).map (fun r => r.2[8]?) = .ok (some [.send [176, 80, 1]]) := by decide +kernel
example : (rotateExample.run {} (presses 5)).map (fun r => r.2[9]?) =
    .ok (some [.send [176, 81, 0], .led 2, .labelText "a", .labelColor 2]) := by decide +kernel

/-! ### C52 -/

/-- C52. Over any history, each value sent is the last value received plus the offset, limited to the range 0..max;
hence it is in this range. -/
theorem C52_range (c : ParamChange) (hmax : 0 ≤ c.max) (es : List ParamEvent) (e : ParamEvent) (v : Int)
    (h : (c.step (c.run c.init es).2 e).2 = some v) :
    0 ≤ v ∧ v ≤ c.max ∧ ∃ x, lastValue none es = some x ∧ v = min c.max (max 0 (x + c.offset)) := by
  obtain ⟨x, hx, hv⟩ := step_sent c _ e v h
  rw [run_value] at hx
  exact ⟨by omega, by omega, x, hx, hv⟩

/-- C52. Each press sends (once) if the value is known. -/
theorem C52_press (c : ParamChange) (es : List ParamEvent) (now : Int) :
    (c.step (c.run c.init es).2 (.push now)).2.isSome = (lastValue none es).isSome := by
  have hv := run_value c es c.init
  simp only [ParamChange.step, ParamChange.push]
  rw [show c.init.value = none from rfl] at hv
  rw [hv]
  cases lastValue none es <;> rfl

/-- C52 (partial). Other than at a press, something is sent only at updates, more than the repeat interval after the
last sending, and only if no release has arrived since then. In particular, nothing is repeated without a repeat interval.
Missing: a release only arrives if the action is enabled at that time, see `C52_runaway`. -/
theorem C52_repeat_partial (c : ParamChange) (hpos : ∀ i, c.repeatInterval = some i → 0 ≤ i) (es : List ParamEvent)
    (e : ParamEvent) (v : Int) (h : (c.step (c.run c.init es).2 e).2 = some v) :
    (∃ now, e = .push now) ∨
    (∃ now t i, e = .update now ∧ c.repeatInterval = some i ∧ heldSince none (c.run c.init es).1 = some t ∧
      t + i < now) := by
  cases e with
  | push now => exact .inl ⟨now, rfl⟩
  | release en => cases en <;> simp [ParamChange.step] at h
  | value w => simp [ParamChange.step] at h
  | update now =>
    right
    obtain ⟨h1, p, h2, h3⟩ := update_sends c _ now v h
    have hi := param_run_inv c hpos es c.init none (param_init_inv c)
    obtain ⟨t, h4, h5⟩ := hi.pushed h1
    have h6 := h5 p h2
    refine ⟨now, t, p.interval, rfl, ?_, h4, by omega⟩
    rw [← hi.period, h2]; rfl

/-- C52. While the switch is held and the value is known, the first update more than the repeat interval after the last
sending sends again (updates before that do not). -/
theorem C52_repeats (c : ParamChange) (i : Int) (hi : c.repeatInterval = some i) (es : List ParamEvent) (t : Int)
    (hv : lastValue none es ≠ none) (mid : List Int) (hmid : ∀ u ∈ mid, u ≤ t + i) (now : Int) (hnow : t + i < now) :
    let st := (c.run c.init (es ++ [.push t] ++ mid.map .update)).2
    (∀ u ≤ t + i, (c.step st (.update u)).2 = none) ∧ (c.step st (.update now)).2.isSome = true := by
  have hper : ∀ (es : List ParamEvent) (st : ParamState), st.period.map (·.interval) = some i →
      (c.run st es).2.period.map (·.interval) = some i := by
    intro es
    induction es with
    | nil => intro st h; exact h
    | cons e es ih =>
      intro st h
      apply ih
      cases e with
      | push now =>
        simp only [ParamChange.step, ParamChange.push]
        cases st.value with
        | none => exact h
        | some x => simp only [← h]; cases st.period <;> rfl
      | release en => cases en <;> exact h
      | value v => exact h
      | update now =>
        simp only [ParamChange.step, ParamChange.update]
        cases st.pushed with
        | false => exact h
        | true =>
          simp only [if_true]
          cases hp : st.period with
          | none => rw [hp] at h; simp at h
          | some p =>
            rw [hp] at h
            simp only [Option.map_some, Option.some.injEq] at h
            have hx : (p.exceeded now).2.interval = i := by
              unfold PeriodCounter.exceeded
              by_cases hlt : p.lastReset + p.interval < now
              · rw [if_pos hlt]; exact h
              · rw [if_neg hlt]; exact h
            simp only
            by_cases he : (p.exceeded now).1 = true
            · rw [if_pos he]
              simp only [ParamChange.push]
              cases st.value with
              | none => simp [hx]
              | some x => simp [PeriodCounter.reset, hx]
            · rw [if_neg he]; simp [hx]
  have hinit : c.init.period.map (·.interval) = some i := by simp [ParamChange.init, hi]
  obtain ⟨x, hx⟩ := Option.ne_none_iff_exists'.1 hv
  have hval := run_value c es c.init
  rw [show c.init.value = none from rfl, hx] at hval
  have hp1 := hper es c.init hinit
  -- the state after the press
  have hpress : ∃ st, (c.run c.init (es ++ [.push t])).2 = st ∧ st.pushed = true ∧ st.value = some x ∧
      st.period = some ⟨i, t⟩ := by
    refine ⟨_, rfl, ?_⟩
    rw [param_run_append]
    simp only [ParamChange.run, ParamChange.step, ParamChange.push, hval]
    refine ⟨trivial, trivial, ?_⟩
    cases hq : (c.run c.init es).2.period with
    | none => rw [hq] at hp1; simp at hp1
    | some q =>
      rw [hq] at hp1
      simp only [Option.map_some, Option.some.injEq] at hp1
      simp [PeriodCounter.reset, ← hp1]
  obtain ⟨st₀, h0, hpu, hv0, hp0⟩ := hpress
  have upd : ∀ u ≤ t + i, c.update st₀ u = (st₀, none) := by
    intro u hu
    unfold ParamChange.update
    rw [hpu, hp0]
    simp only [if_true, PeriodCounter.exceeded, if_neg (show ¬ t + i < u by omega)]
    simp only [Bool.false_eq_true, if_false]
    rw [← hpu, ← hp0]
  have hmid' : ∀ mid : List Int, (∀ u ∈ mid, u ≤ t + i) → (c.run st₀ (mid.map .update)).2 = st₀ := by
    intro mid
    induction mid with
    | nil => intro _; rfl
    | cons u mid ih =>
      intro hm
      simp only [List.map_cons, ParamChange.run, ParamChange.step]
      rw [upd u (hm u (by simp))]
      exact ih (fun w hw => hm w (by simp [hw]))
  intro st
  have hst : st = st₀ := by
    show (c.run c.init (es ++ [.push t] ++ mid.map .update)).2 = st₀
    rw [param_run_append, h0]
    exact hmid' mid hmid
  rw [hst]
  constructor
  · intro u hu
    simp only [ParamChange.step, upd u hu]
  · simp only [ParamChange.step, ParamChange.update, hpu, hp0, if_true, PeriodCounter.exceeded,
      if_pos (show t + i < now by omega), ParamChange.push, hv0, Option.isSome_some]

/-- Volume up in steps of 1000. -/
def volumeUp : ParamChange := { offset := 1000, max := 16383 }

example : (volumeUp.run volumeUp.init [.value (some 15000), .push 1000, .update 1100, .value (some 16000), .update 1201,
    .release true, .update 2000]).1.map (·.2) = [none, some 16000, none, none, some 16383, none, none] := by decide +kernel
example : (volumeUp.step (volumeUp.run volumeUp.init [.value (some 15000), .push 1000]).2 (.update 1201)).2 = some 16000 := by
  decide +kernel

/-- C52: if the action gets disabled (for example by a page change) while the switch is pressed, the release does not
arrive, and the action repeats for as long as the application runs: every update later than the interval after the
last one sends again. -/
theorem C52_runaway (c : ParamChange) (i x : Int) (hi : c.repeatInterval = some i) (t : Int) (n : Nat) :
    (c.run c.init ([.value (some x), .push t, .release false] ++
      (List.range n).map (fun (k : Nat) => ParamEvent.update (t + (k + 1) * (i + 1))))).1.drop 3 =
    (List.range n).map (fun (k : Nat) => (ParamEvent.update (t + (k + 1) * (i + 1)),
      some (min c.max (max 0 (x + c.offset))))) := by
  have hclamp : (if (if x + c.offset < 0 then 0 else x + c.offset) > c.max then c.max
      else (if x + c.offset < 0 then 0 else x + c.offset)) = min c.max (max 0 (x + c.offset)) := by
    grind
  have key : ∀ (n : Nat) (m : Nat) (lv : Option (Option Int)),
      (c.run ⟨some x, true, some ⟨i, t + m * (i + 1)⟩, lv⟩
        ((List.range' m n).map (fun (k : Nat) => ParamEvent.update (t + (k + 1) * (i + 1))))).1 =
      (List.range' m n).map (fun (k : Nat) => (ParamEvent.update (t + (k + 1) * (i + 1)),
        some (min c.max (max 0 (x + c.offset))))) := by
    intro n
    induction n with
    | zero => intro m lv; rfl
    | succ n ih =>
      intro m lv
      have hlt : t + (m : Int) * (i + 1) + i < t + ((m : Int) + 1) * (i + 1) := by grind
      simp only [List.range'_succ, List.map_cons, ParamChange.run, ParamChange.step, ParamChange.update, if_true,
        PeriodCounter.exceeded, if_pos hlt, ParamChange.push, Option.map_some, PeriodCounter.reset]
      rw [hclamp]
      have := ih (m + 1) lv
      simp only [Int.natCast_add, Int.natCast_one] at this
      rw [this]
  have h0 := key n 0 none
  rw [← List.range_eq_range'] at h0
  simp only [List.cons_append, List.nil_append, ParamChange.run, ParamChange.step, ParamChange.push, ParamChange.init, hi,
    Option.map_some, PeriodCounter.reset, List.drop_succ_cons, List.drop_zero]
  simpa using h0

/-! ### C74 -/

/-- C74. For every value of the parameter in 0..max, the brightness factor is in 0..1 and the text is a percentage in
0..100; without a value the text is "?" and the factor is 0 or 1. -/
theorem C74_valid (c : ParamChange) (hm : 0 < c.max) (v : Option Int) (hv : ∀ x, v = some x → 0 ≤ x ∧ x ≤ c.max) :
    0 ≤ (c.shown v).factor ∧ (c.shown v).factor ≤ 1 ∧
    ((v = none ∧ (c.shown v).text = "?") ∨ ∃ n : Int, 0 ≤ n ∧ n ≤ 100 ∧ (c.shown v).text = toString n) := by
  have hmr : (0 : Rat) < (c.max : Rat) := by exact_mod_cast hm
  have hne : (c.max : Rat) ≠ 0 := by grind
  have hd : ∀ x : Int, 0 ≤ x → x ≤ c.max → 0 ≤ (x : Rat) / (c.max : Rat) ∧ (x : Rat) / (c.max : Rat) ≤ 1 := by
    intro x h0 h1
    refine ⟨rat_div_nonneg hmr (by exact_mod_cast h0), ?_⟩
    have : (x : Rat) / (c.max : Rat) ≤ (c.max : Rat) / (c.max : Rat) := rat_div_le_div hmr (by exact_mod_cast h1)
    rwa [Rat.div_def (c.max : Rat), Rat.mul_inv_cancel _ hne] at this
  cases v with
  | none =>
    refine ⟨?_, ?_, .inl ⟨rfl, rfl⟩⟩ <;> simp only [ParamChange.shown, ParamChange.factor] <;>
      by_cases ho : c.offset < 0 <;> simp only [ho, if_true, if_false] <;> grind
  | some x =>
    obtain ⟨h0, h1⟩ := hv x rfl
    obtain ⟨d0, d1⟩ := hd x h0 h1
    refine ⟨?_, ?_, .inr ?_⟩
    · simp only [ParamChange.shown, ParamChange.factor]
      by_cases ho : c.offset < 0 <;> simp only [ho, if_true, if_false] <;> grind
    · simp only [ParamChange.shown, ParamChange.factor]
      by_cases ho : c.offset < 0 <;> simp only [ho, if_true, if_false] <;> grind
    · have e : (x : Rat) * 100 / (c.max : Rat) = (x : Rat) / (c.max : Rat) * 100 := by
        rw [Rat.div_def, Rat.div_def, Rat.mul_assoc, Rat.mul_comm 100, ← Rat.mul_assoc]
      refine ⟨pyRound ((x : Rat) * 100 / (c.max : Rat)), ?_, ?_, rfl⟩
      · exact pyRound_nonneg (by rw [e]; grind)
      · have : (x : Rat) * 100 / (c.max : Rat) ≤ ((100 : Int) : Rat) := by
          rw [e]
          have : ((100 : Int) : Rat) = 100 := by norm_cast
          rw [this]
          grind
        have := pyRound_mono this
        rwa [pyRound_intCast] at this

/-- C74. The brightness rises with the value for "up" actions and falls for "down" actions; at the end of the range it is
full, so one can see where the action has no effect any more. -/
theorem C74_ends (c : ParamChange) (hm : 0 < c.max) :
    (0 ≤ c.offset → (c.shown (some 0)).factor = 0 ∧ (c.shown (some c.max)).factor = 1) ∧
    (c.offset < 0 → (c.shown (some 0)).factor = 1 ∧ (c.shown (some c.max)).factor = 0) ∧
    (c.shown (some 0)).text = "0" ∧ (c.shown (some c.max)).text = "100" := by
  have hmr : (0 : Rat) < (c.max : Rat) := by exact_mod_cast hm
  have hne : (c.max : Rat) ≠ 0 := by grind
  have h1 : (c.max : Rat) / (c.max : Rat) = 1 := by rw [Rat.div_def, Rat.mul_inv_cancel _ hne]
  have h0 : ((0 : Int) : Rat) / (c.max : Rat) = 0 := by rw [Rat.div_def]; simp
  have e0 : ((0 : Int) : Rat) * 100 / (c.max : Rat) = ((0 : Int) : Rat) := by rw [Rat.div_def]; simp
  have e1 : (c.max : Rat) * 100 / (c.max : Rat) = ((100 : Int) : Rat) := by
    rw [Rat.mul_comm, Rat.div_def, Rat.mul_assoc, Rat.mul_inv_cancel _ hne, Rat.mul_one]; rfl
  refine ⟨?_, ?_, ?_, ?_⟩
  · intro ho
    simp only [ParamChange.shown, ParamChange.factor, if_neg (show ¬ c.offset < 0 by omega)]
    exact ⟨h0, h1⟩
  · intro ho
    simp only [ParamChange.shown, ParamChange.factor, if_pos ho, h0, h1]
    constructor <;> grind
  · simp only [ParamChange.shown, ParamChange.valText, e0, pyRound_intCast]; rfl
  · simp only [ParamChange.shown, ParamChange.valText, e1, pyRound_intCast]; rfl

/-- C74. After any history, once the periodic update has found the action enabled (having been disabled at the update
before, or at the first update), the display shows the current value, as long as the action stays enabled: although it is
only drawn on changes. -/
theorem C74_follows (c : ParamChange) (pre es : List ShowEvent)
    (hne : (c.showRun {} pre).2.lastEnabled ≠ some true) (he : ∀ e ∈ es, e.enabled = true) :
    (c.showRun {} (pre ++ [.update true] ++ es)).1.flatten.getLast? =
      some (c.shown (valueAfter none (pre ++ [.update true] ++ es))) := by
  have h0 : Cached c (c.showRun {} pre).2 (lastOf none (c.showRun {} pre).1.flatten) :=
    run_cached c pre {} none (by intro v hv; simp at hv)
  have hstep := step_cached c _ (.update true) _ h0
  have hd : lastOf (lastOf none (c.showRun {} pre).1.flatten) (c.showStep (c.showRun {} pre).2 (.update true)).2 =
      some (c.shown (c.showStep (c.showRun {} pre).2 (.update true)).1.value) := by
    simp only [ParamChange.showStep, if_pos hne, draw_value]
    exact (draw_cached c { (c.showRun {} pre).2 with last := none, lastEnabled := some true } true _
      (by intro v hv; simp at hv)).2 rfl
  have hf := follow_run c es _ _ hstep hd he
  have hv : (c.showRun {} (pre ++ [.update true] ++ es)).2.value = valueAfter none (pre ++ [.update true] ++ es) :=
    show_value c _ {}
  rw [← hv]
  have hflat : (c.showRun {} (pre ++ [.update true] ++ es)).1.flatten =
      (c.showRun {} pre).1.flatten ++ (c.showStep (c.showRun {} pre).2 (.update true)).2 ++
        (c.showRun (c.showStep (c.showRun {} pre).2 (.update true)).1 es).1.flatten := by
    rw [showRun_append, showRun_append]
    simp [ParamChange.showRun]
  have hst : (c.showRun {} (pre ++ [.update true] ++ es)).2 =
      (c.showRun (c.showStep (c.showRun {} pre).2 (.update true)).1 es).2 := by
    rw [showRun_append, showRun_append]
    simp [ParamChange.showRun]
  rw [hst, ← hf, ← lastOf_append, ← lastOf_append, ← List.append_assoc, ← hflat, lastOf_getLast]
  intro hnil
  rw [hflat] at hnil
  simp only [List.append_eq_nil_iff] at hnil
  rw [hnil.1.2] at hd
  simp only [ParamChange.showStep, if_pos hne, ParamChange.draw] at hnil
  simp at hnil

/-- C74. While the action is disabled, nothing is drawn. -/
theorem C74_disabled (c : ParamChange) (st : ShowState) (e : ShowEvent) (he : e.enabled = false) :
    (c.showStep st e).2 = [] := by
  cases e with
  | start en => simp only [ShowEvent.enabled] at he; subst he; rfl
  | changed v en => simp only [ShowEvent.enabled] at he; subst he; rfl
  | update en =>
    simp only [ShowEvent.enabled] at he; subst he
    simp only [ParamChange.showStep]
    by_cases h : st.lastEnabled ≠ some false
    · rw [if_pos h]; rfl
    · rw [if_neg h]
  | reset => simp [ShowEvent.enabled] at he

example : (volumeUp.showRun {} ([.start true, .changed (some 100) true] ++ [.update true] ++
    [.changed (some 8192) true, .reset])).1.flatten.getLast?.map (·.text) = some "50" := by decide +kernel
example : (volumeUp.showRun {} [.update true, .update false, .changed (some 100) false]).2.lastEnabled ≠ some true := by
  decide +kernel

end PySwitch.Props
