import Verif.Lemmas.Paged

/-!
Panels with pages which are configured well: the calls are the wanted ones, and pushes and releases come in turns.
-/

namespace PySwitch.Paged
open PySwitch.Local PySwitch.Paged.Spec

theorem enabled_iff (p : Pager) (w : World) (page : Page) (h : Current p w.pager page) (a : Act) :
    w.enabled a = decide (OnPage p w.pager.index.toNat a) := by
  obtain ⟨h0, h1, h2⟩ := h
  have hiff : OnPage p w.pager.index.toNat a ↔ w.enabled a = true := by
    unfold World.enabled OnPage
    rw [h1]
    cases ha : a.page with
    | none => simp
    | some id =>
      simp only [pagerEnabled, h2, Option.some.injEq, reduceCtorEq, false_or, beq_iff_eq]
      constructor
      · rintro ⟨_, rfl, h⟩; exact h
      · intro h; exact ⟨page, rfl, h⟩
  cases he : w.enabled a
  · rw [he] at hiff
    simp [hiff]
  · rw [he] at hiff
    simp [hiff]

theorem others_cons (p : Pager) (i : Nat) (a : Act) (as : List Act) (k : Nat) (ha : a.kind = .other k) :
    others p i (a :: as) = (if OnPage p i a then [k] else []) ++ others p i as := by
  unfold others
  rw [List.filterMap_cons]
  simp only [ha]
  split <;> split <;> simp_all

theorem others_changer (p : Pager) (i : Nat) (a : Act) (as : List Act) (ha : ∀ k, a.kind ≠ .other k) :
    others p i (a :: as) = others p i as := by
  unfold others
  rw [List.filterMap_cons]
  cases hk : a.kind with
  | pager => simp
  | select id => simp
  | other k => exact absurd hk (ha k)

theorem others_free (p : Pager) (i i' : Nat) (as : List Act) (h : ∀ a ∈ as, a.page = none) : others p i as = others p i' as := by
  induction as with
  | nil => rfl
  | cons a as ih =>
    have ih := ih fun b hb => h b (List.mem_cons_of_mem _ hb)
    have ha := h a (List.mem_cons_self ..)
    by_cases hc : ∃ k, a.kind = .other k
    · obtain ⟨k, hk⟩ := hc
      rw [others_cons p i a as k hk, others_cons p i' a as k hk, ih, if_pos (.inl ha), if_pos (.inl ha)]
    · have hn : ∀ k, a.kind ≠ .other k := fun k hk => hc ⟨k, hk⟩
      rw [others_changer p i a as hn, others_changer p i' a as hn, ih]

theorem pushAll_others (p : Pager) (as : List Act) (ha : ∀ a ∈ as, ∃ k, a.kind = .other k) : ∀ (w : World) (page : Page),
    Current p w.pager page → pushAll p w as = .ok ⟨w.pager, w.calls ++ (others p w.pager.index.toNat as).map .push⟩ := by
  induction as with
  | nil => intro w page _; simp [pushAll, others]
  | cons a as ih =>
    intro w page h
    obtain ⟨k, hk⟩ := ha a (List.mem_cons_self ..)
    have ih := ih fun b hb => ha b (List.mem_cons_of_mem _ hb)
    rw [pushAll, enabled_iff p w page h, others_cons p _ a as k hk]
    by_cases ho : OnPage p w.pager.index.toNat a
    · simp only [ho, decide_true, if_true, World.push, hk]
      rw [ih ⟨w.pager, w.calls ++ [Call.push k]⟩ page h]
      simp
    · simp only [ho, decide_false, Bool.false_eq_true, if_false]
      rw [ih _ page h]
      simp

theorem releaseAll_others (p : Pager) (as : List Act) : ∀ (w : World) (page : Page),
    Current p w.pager page → releaseAll w as = ⟨w.pager, w.calls ++ (others p w.pager.index.toNat as).map .release⟩ := by
  induction as with
  | nil => intro w page _; simp [releaseAll, others]
  | cons a as ih =>
    intro w page h
    rw [releaseAll, enabled_iff p w page h]
    by_cases hc : ∃ k, a.kind = .other k
    · obtain ⟨k, hk⟩ := hc
      rw [others_cons p _ a as k hk]
      by_cases ho : OnPage p w.pager.index.toNat a
      · simp only [ho, decide_true, if_true, World.release, hk]
        rw [ih ⟨w.pager, w.calls ++ [Call.release k]⟩ page h]
        simp
      · simp only [ho, decide_false, Bool.false_eq_true, if_false]
        rw [ih _ page h]
        simp
    · have hn : ∀ k, a.kind ≠ .other k := fun k hk => hc ⟨k, hk⟩
      rw [others_changer p _ a as hn]
      have hr : w.release a = w := by
        unfold World.release
        cases hk : a.kind with
        | pager => rfl
        | select id => rfl
        | other k => exact absurd hk (hn k)
      rw [hr]
      split <;> exact ih w page h

/-- Pressing a good switch. -/
theorem pushAll_good (p : Pager) (c : Config) (hg : Good c) (w : World) (page : Page) (h : Current p w.pager page) :
    ∃ w' page', pushAll p w c.actions = .ok w' ∧ Current p w'.pager page' ∧
      w'.pager.index.toNat = (pressed p w.pager.index.toNat c).1 ∧
      w'.calls = w.calls ++ ((pressed p w.pager.index.toNat c).2 ++ (others p w.pager.index.toNat c.actions).map .push) := by
  by_cases hall : ∀ a ∈ c.actions, ∃ k, a.kind = .other k
  · have hch : changer c = none := by
      unfold changer
      cases hc : c.actions with
      | nil => rfl
      | cons a as =>
        obtain ⟨k, hk⟩ := hall a (by rw [hc]; exact List.mem_cons_self ..)
        simp [Option.filter, Spec.Kind.changes, hk]
    refine ⟨_, page, pushAll_others p _ hall w page h, h, ?_, ?_⟩
    · simp only [pressed, hch]
    · simp only [pressed, hch, List.nil_append]
  · rcases hg.2 with h' | ⟨a, rest, hc, hrest⟩
    · exact absurd h' hall
    have hn : ∀ k, a.kind ≠ .other k := by
      intro k hk
      apply hall
      intro b hb
      rw [hc, List.mem_cons] at hb
      rcases hb with rfl | hb
      · exact ⟨k, hk⟩
      · exact (hrest b hb).2
    have hch : changer c = some a := by
      unfold changer
      rw [hc]
      cases hk : a.kind with
      | pager => simp [Option.filter, Spec.Kind.changes, hk]
      | select id => simp [Option.filter, Spec.Kind.changes, hk]
      | other k => exact absurd hk (hn k)
    have hfree : ∀ b ∈ rest, b.page = none := fun b hb => (hrest b hb).1
    have hoth : ∀ b ∈ rest, ∃ k, b.kind = .other k := fun b hb => (hrest b hb).2
    rw [hc, pushAll, enabled_iff p w page h, others_changer p _ a rest hn]
    by_cases ho : OnPage p w.pager.index.toNat a
    · simp only [ho, decide_true, if_true, pressed, hch]
      cases hk : a.kind with
      | other k => exact absurd hk (hn k)
      | pager =>
        obtain ⟨r, page', h1, h2, h3, h4⟩ := push_pager p w.pager page (fun _ => true) h
        simp only [World.push, hk, h1, World.turned, h4]
        refine ⟨_, page', pushAll_others p rest hoth _ page' h2, h2, h3, ?_⟩
        simp only
        rw [others_free p _ w.pager.index.toNat rest hfree]
        simp
      | select id =>
        obtain ⟨r, page', h1, h2, h3, h4⟩ := push_select p w.pager page (fun _ => true) id h
        simp only [World.push, hk, h1, World.turned, h4]
        refine ⟨_, page', pushAll_others p rest hoth _ page' h2, h2, h3, ?_⟩
        simp only
        rw [others_free p _ w.pager.index.toNat rest hfree]
        simp
    · simp only [ho, decide_false, Bool.false_eq_true, if_false, pressed, hch]
      exact ⟨_, page, pushAll_others p rest hoth w page h, h, rfl, by simp⟩

/-- The states of the switches belong to what is down. -/
structure Ok (p : Pager) (cs : List Config) (s : Panel) (i : Nat) (down : Nat → Bool) : Prop where
  current : ∃ page, Current p s.world.pager page
  index : s.world.pager.index.toNat = i
  states : ∀ j, j < cs.length → ∃ st, s.states[j]? = some st ∧ st.pushedState = down j ∧ st.holdActive = false

theorem ok_set {p : Pager} {cs : List Config} {s : Panel} {i i' : Nat} {down : Nat → Bool} (h : Ok p cs s i down) (e : Sample)
    (st : Switch.State) (hst : st.pushedState = e.down) (hha : st.holdActive = false) (w : World) (hw : ∃ page, Current p w.pager page)
    (hi : w.pager.index.toNat = i') : Ok p cs ⟨s.states.set e.switch st, w⟩ i' (after down e) := by
  refine ⟨hw, hi, fun j hj => ?_⟩
  obtain ⟨st', h1, h2, h3⟩ := h.states j hj
  by_cases he : j = e.switch
  · subst he
    have : e.switch < s.states.length := (List.getElem?_eq_some_iff.1 h1).1
    exact ⟨st, by simp [this], by simp [after, hst], hha⟩
  · refine ⟨st', ?_, by simp [after, he, h2], h3⟩
    show (s.states.set e.switch st)[j]? = some st'
    rw [List.getElem?_set_ne (Ne.symm he)]
    exact h1

theorem run_good (p : Pager) (cs : List Config) (hg : ∀ c ∈ cs, Good c) (es : List Sample) : ∀ (s : Panel) (i : Nat) (down : Nat → Bool),
    Ok p cs s i down → ∃ s', s.run p cs es = .ok s' ∧ (∃ page, Current p s'.world.pager page) ∧
      s'.world.calls = s.world.calls ++ (wanted p cs i down es).1 ∧ s'.world.pager.index.toNat = (wanted p cs i down es).2 := by
  induction es with
  | nil => intro s i down h; exact ⟨s, rfl, h.current, by simp [wanted], h.index⟩
  | cons e es ih =>
    intro s i down h
    rw [Panel.run, wanted, Panel.step]
    cases hcs : cs[e.switch]? with
    | none => exact ih s i down h
    | some c =>
      have hl : e.switch < cs.length := (List.getElem?_eq_some_iff.1 hcs).1
      have hgc := hg c (List.mem_of_getElem? hcs)
      obtain ⟨st, hs1, hs2, hs3⟩ := h.states e.switch hl
      obtain ⟨page, hpage⟩ := h.current
      simp only [hs1]
      cases hd : e.down
      · cases hdo : down e.switch
        · -- up, and has been up
          rw [hdo] at hs2
          simp only [process, hs2, Bool.not_false, if_true, Bool.false_eq_true, if_false]
          have : Ok p cs ⟨s.states.set e.switch st, s.world⟩ i down := by
            refine ⟨h.current, h.index, fun j hj => ?_⟩
            obtain ⟨st', h1, h2, h3⟩ := h.states j hj
            by_cases he : j = e.switch
            · subst he
              have : e.switch < s.states.length := (List.getElem?_eq_some_iff.1 h1).1
              exact ⟨st, by simp [this], by rw [hs2, hdo], hs3⟩
            · refine ⟨st', ?_, h2, h3⟩
              show (s.states.set e.switch st)[j]? = some st'
              rw [List.getElem?_set_ne (Ne.symm he)]
              exact h1
          exact ih _ i down this
        · -- released
          rw [hdo] at hs2
          simp only [process, hs2, Bool.not_false, if_true, release, hgc.1, releaseActions, Bool.false_eq_true, if_false]
          rw [releaseAll_others p c.actions s.world page hpage]
          have hok := ok_set h e { st with pushedState := false, holdActive := false, holdWasActive := false } (by simp [hd]) rfl
            ⟨s.world.pager, s.world.calls ++ (others p s.world.pager.index.toNat c.actions).map .release⟩ h.current h.index
          obtain ⟨s', h1, h2, h3, h4⟩ := ih _ i (after down e) hok
          refine ⟨s', h1, h2, ?_, h4⟩
          rw [h3, h.index]
          simp
      · cases hdo : down e.switch
        · -- pressed
          rw [hdo] at hs2
          simp only [process, hs3, pushed, hs2, hgc.1, Bool.not_true, Bool.false_eq_true, if_false, if_true, reduceCtorEq]
          obtain ⟨w', page', h1, h2, h3, h4⟩ := pushAll_good p c hgc s.world page hpage
          simp only [h1]
          rw [h.index] at h3 h4
          have hok := ok_set h e ⟨true, false, st.holdWasActive, st.period⟩ (by simp [hd]) rfl w' ⟨page', h2⟩ h3
          obtain ⟨s', g1, g2, g3, g4⟩ := ih _ _ (after down e) hok
          refine ⟨s', g1, g2, ?_, g4⟩
          rw [g3]
          simp only
          rw [h4]
          simp
        · -- down, and has been down
          rw [hdo] at hs2
          simp only [process, hs3, pushed, hs2, Bool.not_true, Bool.false_eq_true, if_false, if_true]
          have : Ok p cs ⟨s.states.set e.switch st, s.world⟩ i down := by
            refine ⟨h.current, h.index, fun j hj => ?_⟩
            obtain ⟨st', h1, h2, h3⟩ := h.states j hj
            by_cases he : j = e.switch
            · subst he
              have : e.switch < s.states.length := (List.getElem?_eq_some_iff.1 h1).1
              exact ⟨st, by simp [this], by rw [hs2, hdo], hs3⟩
            · refine ⟨st', ?_, h2, h3⟩
              show (s.states.set e.switch st)[j]? = some st'
              rw [List.getElem?_set_ne (Ne.symm he)]
              exact h1
          exact ih _ i down this

theorem start_ok (p : Pager) (cs : List Config) (holdTime : Int) (hne : p.pages ≠ []) : Ok p cs (start p cs holdTime) 0 fun _ => false := by
  refine ⟨pagerInit_current p hne, rfl, fun j hj => ?_⟩
  exact ⟨Switch.initial holdTime, by simp [start, hj], rfl, rfl⟩

/-! ### Pushes and releases come in turns -/

theorem turns_append (k : Nat) (a b : List Call) : ∀ o, turns k o (a ++ b) = (turns k o a).bind fun o => turns k o b := by
  induction a with
  | nil => intro o; rfl
  | cons x a ih =>
    intro o
    cases x with
    | push j =>
      simp only [List.cons_append, turns]
      split
      · split
        · rfl
        · exact ih true
      · exact ih o
    | release j =>
      simp only [List.cons_append, turns]
      split
      · split
        · exact ih false
        · rfl
      · exact ih o
    | reset =>
      simp only [List.cons_append, turns]
      split
      · rfl
      · exact ih false

theorem turns_push_none (k : Nat) (l : List Nat) (h : k ∉ l) (o : Bool) : turns k o (l.map .push) = some o := by
  induction l with
  | nil => rfl
  | cons a l ih =>
    simp only [List.mem_cons, not_or] at h
    simp only [List.map_cons, turns]
    rw [if_neg (Ne.symm h.1), ih h.2]

theorem turns_release_none (k : Nat) (l : List Nat) (h : k ∉ l) (o : Bool) : turns k o (l.map .release) = some o := by
  induction l with
  | nil => rfl
  | cons a l ih =>
    simp only [List.mem_cons, not_or] at h
    simp only [List.map_cons, turns]
    rw [if_neg (Ne.symm h.1), ih h.2]

theorem turns_push (k : Nat) (l : List Nat) (h : (l.filter fun x => decide (x = k)).length ≤ 1) :
    turns k false (l.map .push) = some (decide (k ∈ l)) := by
  induction l with
  | nil => rfl
  | cons a l ih =>
    simp only [List.map_cons, turns]
    by_cases ha : a = k
    · subst ha
      have hn : a ∉ l := by
        intro hm
        have : 0 < (l.filter fun x => decide (x = a)).length := List.length_pos_iff.2 (List.ne_nil_of_mem (List.mem_filter.2 ⟨hm, by simp⟩))
        simp only [List.filter_cons, decide_true, if_true, List.length_cons] at h
        omega
      simp [turns_push_none a l hn true]
    · rw [if_neg ha, ih (by simpa [List.filter_cons, ha] using h)]
      simp [Ne.symm ha]

theorem turns_release (k : Nat) (l : List Nat) (h : (l.filter fun x => decide (x = k)).length ≤ 1) :
    turns k (decide (k ∈ l)) (l.map .release) = some false := by
  induction l with
  | nil => rfl
  | cons a l ih =>
    simp only [List.map_cons, turns]
    by_cases ha : a = k
    · subst ha
      have hn : a ∉ l := by
        intro hm
        have : 0 < (l.filter fun x => decide (x = a)).length := List.length_pos_iff.2 (List.ne_nil_of_mem (List.mem_filter.2 ⟨hm, by simp⟩))
        simp only [List.filter_cons, decide_true, if_true, List.length_cons] at h
        omega
      simp [turns_release_none a l hn false]
    · rw [if_neg ha]
      have := ih (by simpa [List.filter_cons, ha] using h)
      simpa [Ne.symm ha] using this

theorem others_count (p : Pager) (i k : Nat) (as : List Act) :
    ((others p i as).filter fun x => decide (x = k)).length ≤ (as.filter fun a => decide (a.kind = .other k)).length := by
  induction as with
  | nil => exact Nat.le_refl _
  | cons a as ih =>
    by_cases hc : ∃ j, a.kind = .other j
    · obtain ⟨j, hj⟩ := hc
      rw [others_cons p i a as j hj]
      by_cases ho : OnPage p i a
      · by_cases hjk : j = k
        · simp [ho, hj, hjk]
          simpa using ih
        · simp [ho, hj, hjk]
          simpa using ih
      · rw [if_neg ho, List.nil_append]
        refine Nat.le_trans ih ?_
        simp only [List.filter_cons]
        split <;> simp
    · have hn : ∀ j, a.kind ≠ .other j := fun j hj => hc ⟨j, hj⟩
      rw [others_changer p i a as hn]
      simpa [hn k] using ih

theorem others_mem {p : Pager} {i k : Nat} {as : List Act} (h : k ∈ others p i as) : ∃ a ∈ as, a.kind = .other k := by
  unfold others at h
  rw [List.mem_filterMap] at h
  obtain ⟨a, ha, h⟩ := h
  cases hk : a.kind with
  | pager => simp [hk] at h
  | select id => simp [hk] at h
  | other j =>
    simp only [hk] at h
    split at h
    · cases h; exact ⟨a, ha, hk⟩
    · cases h

/-- A good switch which is pressed has the same other actions after the change of the page. -/
theorem others_pressed (p : Pager) (i : Nat) (c : Config) (hg : Good c) : others p (pressed p i c).1 c.actions = others p i c.actions := by
  unfold pressed
  cases hc : changer c with
  | none => rfl
  | some a =>
    simp only
    split
    · rcases hg.2 with h | ⟨b, rest, hb, hr⟩
      · exfalso
        unfold changer at hc
        cases hacts : c.actions with
        | nil => rw [hacts] at hc; cases hc
        | cons x xs =>
          rw [hacts] at hc
          obtain ⟨k, hk⟩ := h x (by rw [hacts]; exact List.mem_cons_self ..)
          simp [Option.filter, Spec.Kind.changes, hk] at hc
      · unfold changer at hc
        rw [hb] at hc
        have hn : ∀ k, b.kind ≠ .other k := by
          intro k hk
          simp [Option.filter, Spec.Kind.changes, hk] at hc
        rw [hb, others_changer p _ b rest hn, others_changer p _ b rest hn]
        exact others_free p _ _ rest fun x hx => (hr x hx).1
    · rfl

theorem turns_pressed (p : Pager) (i k : Nat) (c : Config) : turns k false (pressed p i c).2 = some false := by
  unfold pressed
  cases changer c with
  | none => rfl
  | some a =>
    simp only
    split
    · cases a.kind with
      | pager => rfl
      | select id => simp only; split <;> rfl
      | other j => rfl
    · rfl

theorem wanted_turns (p : Pager) (cs : List Config) (hg : ∀ c ∈ cs, Good c) (n k : Nat) (hk : Once cs n k) (cn : Config)
    (hn : cs[n]? = some cn) (es : List Sample) : ∀ (i : Nat) (down : Nat → Bool), Quiet cs down es →
    ∃ o, turns k (down n && decide (k ∈ others p i cn.actions)) (wanted p cs i down es).1 = some o ∧
      (o = true → es.foldl after down n = true) := by
  induction es with
  | nil =>
    intro i down _
    refine ⟨_, rfl, ?_⟩
    intro h
    rw [Bool.and_eq_true] at h
    exact h.1
  | cons e es ih =>
    intro i down hq
    obtain ⟨hq1, hq2⟩ := hq
    have same : ∀ c, cs[e.switch]? = some c → e.down = down e.switch → after down e = down := by
      intro c _ h
      funext j
      unfold after
      split
      · rename_i hj; rw [hj, h]
      · rfl
    rw [wanted, List.foldl_cons]
    cases hc : cs[e.switch]? with
    | none =>
      -- not a switch of the panel: what is said about the switches of the panel is not changed
      simp only
      have hne : e.switch ≠ n := by
        rintro rfl; rw [hn] at hc; cases hc
      have hlen : cs.length ≤ e.switch := List.getElem?_eq_none_iff.1 hc
      have key : ∀ (es : List Sample) (d d' : Nat → Bool) (i : Nat), (∀ j, j < cs.length → d j = d' j) →
          wanted p cs i d es = wanted p cs i d' es ∧ (∀ j, j < cs.length → es.foldl after d j = es.foldl after d' j) := by
        intro es
        induction es with
        | nil => intro d d' i h; exact ⟨rfl, h⟩
        | cons x es ih2 =>
          intro d d' i h
          have hx : ∀ j, j < cs.length → after d x j = after d' x j := by
            intro j hj; unfold after; split
            · rfl
            · exact h j hj
          rw [wanted, wanted, List.foldl_cons, List.foldl_cons]
          cases hxc : cs[x.switch]? with
          | none =>
            have hlx : cs.length ≤ x.switch := List.getElem?_eq_none_iff.1 hxc
            exact ⟨(ih2 d d' i h).1, (ih2 _ _ i hx).2⟩
          | some c =>
            have hlx : x.switch < cs.length := (List.getElem?_eq_some_iff.1 hxc).1
            simp only [h x.switch hlx]
            refine ⟨?_, (ih2 _ _ i hx).2⟩
            split
            · exact (ih2 d d' i h).1
            · split
              · rw [(ih2 _ _ _ hx).1]
              · rw [(ih2 _ _ _ hx).1]
      have hagree : ∀ j, j < cs.length → down j = after down e j := by
        intro j hj
        unfold after
        rw [if_neg (by omega)]
      have hnl : n < cs.length := (List.getElem?_eq_some_iff.1 hn).1
      obtain ⟨o, h1, h2⟩ := ih i (after down e) hq2
      rw [(key es _ _ i hagree).1, hagree n hnl]
      exact ⟨o, h1, h2⟩
    | some c =>
      simp only
      have hl : e.switch < cs.length := (List.getElem?_eq_some_iff.1 hc).1
      have hgc := hg c (List.mem_of_getElem? hc)
      by_cases hd : e.down = down e.switch
      · rw [if_pos hd]
        have hs := same c hc hd
        rw [hs] at hq2 ⊢
        exact ih i down hq2
      · rw [if_neg hd]
        -- the number of times the action is among those of the switch
        have hcnt : (e.switch = n → ((others p i c.actions).filter fun x => decide (x = k)).length ≤ 1) ∧
            (e.switch ≠ n → k ∉ others p i c.actions) := by
          have := hk e.switch c hc
          constructor
          · intro h
            rw [if_pos h] at this
            exact Nat.le_trans (others_count p i k c.actions) this
          · intro h hm
            rw [if_neg h] at this
            obtain ⟨a, ha, hak⟩ := others_mem hm
            exact this a ha hak
        have hcn : e.switch = n → c = cn := by
          rintro rfl; rw [hn] at hc; cases hc; rfl
        by_cases hdown : e.down = true
        · -- pressed
          have hup : down e.switch = false := by
            cases h : down e.switch
            · rfl
            · rw [hdown, h] at hd; exact absurd rfl hd
          rw [if_pos hdown]
          simp only
          obtain ⟨o, h1, h2⟩ := ih (pressed p i c).1 (after down e) hq2
          refine ⟨o, ?_, h2⟩
          rw [turns_append, turns_append]
          by_cases hen : e.switch = n
          · subst hen
            have := hcn rfl
            subst this
            rw [hup, Bool.false_and, turns_pressed, Option.bind_some, turns_push k _ (hcnt.1 rfl), Option.bind_some]
            rw [others_pressed p i c hgc] at h1
            have ha : after down e e.switch = true := by simp [after, hdown]
            rw [ha, Bool.true_and] at h1
            exact h1
          · have ha : after down e n = down n := by simp [after, Ne.symm hen]
            rw [ha] at h1
            -- if it changes the page, switch n is up
            have hpr : turns k (down n && decide (k ∈ others p i cn.actions)) (pressed p i c).2 =
                some (down n && decide (k ∈ others p i cn.actions)) ∧
                (down n && decide (k ∈ others p (pressed p i c).1 cn.actions)) = (down n && decide (k ∈ others p i cn.actions)) := by
              cases hch : changer c with
              | none => simp [pressed, hch, turns]
              | some a =>
                have := hq1 c a hc hch hdown hup n (List.getElem?_eq_some_iff.1 hn).1 (Ne.symm hen)
                rw [this]
                simp only [Bool.false_and]
                exact ⟨turns_pressed p i k c, trivial⟩
            rw [hpr.1, Option.bind_some, turns_push_none k _ (hcnt.2 hen), Option.bind_some, ← hpr.2]
            exact h1
        · -- released
          rw [if_neg hdown]
          have hdn : down e.switch = true := by
            cases h : down e.switch
            · exfalso; apply hd; rw [h]; simpa using hdown
            · rfl
          simp only
          obtain ⟨o, h1, h2⟩ := ih i (after down e) hq2
          refine ⟨o, ?_, h2⟩
          rw [turns_append]
          by_cases hen : e.switch = n
          · subst hen
            have := hcn rfl
            subst this
            rw [hdn, Bool.true_and, turns_release k _ (hcnt.1 rfl), Option.bind_some]
            have ha : after down e e.switch = false := by simpa [after] using hdown
            rw [ha, Bool.false_and] at h1
            exact h1
          · have ha : after down e n = down n := by simp [after, Ne.symm hen]
            rw [ha] at h1
            rw [turns_release_none k _ (hcnt.2 hen), Option.bind_some]
            exact h1

end PySwitch.Paged
