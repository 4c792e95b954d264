import Verif.Lemmas.PagedGood

/-!
C168: on each page, every switch does what is assigned to it there.
-/

namespace PySwitch.Props
open PySwitch.Local (Id Pager Page Current)
open PySwitch.Paged PySwitch.Paged.Spec
open PySwitch.PushButton (Mode)

/-- **C168**, no error: whatever is assigned to the switches and however they are used, nothing raises, and one of the pages is shown. -/
theorem C168_no_error (p : Pager) (hne : p.pages ≠ []) (cs : List Config) (holdTime : Int) (es : List Sample) :
    ∃ s page, (start p cs holdTime).run p cs es = .ok s ∧ page ∈ p.pages ∧ s.world.pager.id = page.id := by
  obtain ⟨page0, h0⟩ := PySwitch.Local.pagerInit_current p hne
  obtain ⟨s, page, h1, h2⟩ := run_current p cs es (start p cs holdTime) page0 h0
  exact ⟨s, page, h1, List.mem_of_getElem? h2.2.1, h2.2.2⟩

/-- **C168**, well configured switches: pressing one pushes its actions of the page which is shown then, letting it go releases its actions of
the page which is shown then, and the page is the one which has been selected last. Missing: what the bad configurations of the witnesses do. -/
theorem C168_calls_partial (p : Pager) (hne : p.pages ≠ []) (cs : List Config) (hg : ∀ c ∈ cs, Good c) (holdTime : Int) (es : List Sample) :
    ∃ s page, (start p cs holdTime).run p cs es = .ok s ∧ s.world.calls = (wanted p cs 0 (fun _ => false) es).1 ∧
      p.pages[(wanted p cs 0 (fun _ => false) es).2]? = some page ∧ s.world.pager.id = page.id := by
  obtain ⟨s, h1, ⟨page, h2⟩, h3, h4⟩ := run_good p cs hg es _ _ _ (start_ok p cs holdTime hne)
  refine ⟨s, page, h1, by simpa [start] using h3, ?_, h2.2.2⟩
  rw [← h4]
  exact h2.2.1

/-- **C168**, pairs: if, in addition, no page is changed while another switch is down, each action (which is assigned once) is pushed and released
in turns, without a reset in between, and is down at the end only if its switch is. -/
theorem C168_pairs_partial (p : Pager) (hne : p.pages ≠ []) (cs : List Config) (hg : ∀ c ∈ cs, Good c) (holdTime : Int) (es : List Sample)
    (hq : Quiet cs (fun _ => false) es) (n k : Nat) (cn : Config) (hn : cs[n]? = some cn) (hk : Once cs n k) :
    ∃ s o, (start p cs holdTime).run p cs es = .ok s ∧ turns k false s.world.calls = some o ∧
      (o = true → es.foldl after (fun _ => false) n = true) := by
  obtain ⟨s, page, h1, h2, _⟩ := C168_calls_partial p hne cs hg holdTime es
  obtain ⟨o, h3, h4⟩ := wanted_turns p cs hg n k hk cn hn es 0 (fun _ => false) hq
  rw [Bool.false_and] at h3
  exact ⟨s, o, h1, by rw [h2]; exact h3, h4⟩

namespace C168

theorem sent_momentary (k : Nat) (cs : List Call) : ∀ (o o' : Bool) (st : PushButton.State), st.state = o → turns k o cs = some o' →
    ((PushButton.run .momentary st (eventsOf k cs)).1.flatten.filterMap fun | .changed s => some s | _ => none) = presses k cs := by
  induction cs with
  | nil => intro o o' st _ _; rfl
  | cons c cs ih =>
    intro o o' st hst ht
    cases c with
    | push j =>
      by_cases hj : j = k
      · subst hj
        rw [turns, if_pos rfl] at ht
        cases o with
        | true => simp at ht
        | false =>
          simp only [Bool.false_eq_true, if_false] at ht
          have e1 : eventsOf j (.push j :: cs) = .push 0 none :: eventsOf j cs := by simp [eventsOf]
          have e2 : presses j (.push j :: cs) = true :: presses j cs := by simp [presses]
          rw [e1, e2, PushButton.run]
          have := ih true o' { st with state := true } rfl ht
          simp [PushButton.step, PushButton.push, PushButton.setState, hst]
          simpa using this
      · rw [turns, if_neg hj] at ht
        have e1 : eventsOf k (.push j :: cs) = eventsOf k cs := by simp [eventsOf, hj]
        have e2 : presses k (.push j :: cs) = presses k cs := by simp [presses, hj]
        rw [e1, e2]
        exact ih o o' st hst ht
    | release j =>
      by_cases hj : j = k
      · subst hj
        rw [turns, if_pos rfl] at ht
        cases o with
        | false => simp at ht
        | true =>
          simp only [if_true] at ht
          have e1 : eventsOf j (.release j :: cs) = .release 0 none :: eventsOf j cs := by simp [eventsOf]
          have e2 : presses j (.release j :: cs) = false :: presses j cs := by simp [presses]
          rw [e1, e2, PushButton.run]
          have := ih false o' { st with state := false } rfl ht
          simp [PushButton.step, PushButton.release, PushButton.setState, hst]
          simpa using this
      · rw [turns, if_neg hj] at ht
        have e1 : eventsOf k (.release j :: cs) = eventsOf k cs := by simp [eventsOf, hj]
        have e2 : presses k (.release j :: cs) = presses k cs := by simp [presses, hj]
        rw [e1, e2]
        exact ih o o' st hst ht
    | reset =>
      rw [turns] at ht
      cases o with
      | true => simp at ht
      | false =>
        simp only [Bool.false_eq_true, if_false] at ht
        have e1 : eventsOf k (.reset :: cs) = .reset none :: eventsOf k cs := by simp [eventsOf]
        have e2 : presses k (.reset :: cs) = presses k cs := by simp [presses]
        rw [e1, e2, PushButton.run]
        have := ih false o' { st with state := false } rfl ht
        simp [PushButton.step]
        simpa using this

end C168

/-- **C168**, momentary buttons: under the same conditions, a momentary button without feedback switches on with each press and off with each
release, and sends nothing else. -/
theorem C168_momentary_partial (p : Pager) (hne : p.pages ≠ []) (cs : List Config) (hg : ∀ c ∈ cs, Good c) (holdTime : Int) (es : List Sample)
    (hq : Quiet cs (fun _ => false) es) (n k : Nat) (cn : Config) (hn : cs[n]? = some cn) (hk : Once cs n k) :
    ∃ s, (start p cs holdTime).run p cs es = .ok s ∧ sent .momentary k s.world.calls = presses k s.world.calls := by
  obtain ⟨s, o, h1, h2, _⟩ := C168_pairs_partial p hne cs hg holdTime es hq n k cn hn hk
  exact ⟨s, h1, C168.sent_momentary k _ false o _ rfl h2⟩

/-- **C168**, switches with hold actions: if an action is only assigned to such switches, each push of it is followed by its release at once,
whatever the switches do and whatever pages are selected in between. -/
theorem C168_hold (p : Pager) (cs : List Config) (k : Nat) (hc : ∀ c ∈ cs, c.hold = [] → ∀ a ∈ c.actions, a.kind ≠ .other k) (holdTime : Int)
    (es : List Sample) (s : Panel) (h : (start p cs holdTime).run p cs es = .ok s) : Clicks k s.world.calls := by
  obtain ⟨d, h1, h2⟩ := run_clicks p k cs hc es _ _ h
  rw [h1]
  simpa [start] using h2

namespace C168

/-- The actions of a switch which does not change pages, and which of them belong to the page. -/
structure Plain (w : World) (en : Nat → Bool) (as : List Act) : Prop where
  other : ∀ a ∈ as, ∃ k, a.kind = .other k
  enabled : ∀ a ∈ as, ∀ k, a.kind = .other k → w.enabled a = en k

theorem Plain.keep {w w' : World} {en : Nat → Bool} {as : List Act} (h : Plain w en as) (hp : w'.pager = w.pager) : Plain w' en as :=
  ⟨h.other, fun a ha k hk => by rw [← h.enabled a ha k hk]; simp only [World.enabled, hp]⟩

theorem pushAll_plain (p : Pager) (en : Nat → Bool) (as : List Act) : ∀ w, Plain w en as →
    pushAll p w as = .ok ⟨w.pager, w.calls ++ (((numbers as).filter en).map Switch.Eff.push).flatMap call⟩ := by
  induction as with
  | nil => intro w _; simp [pushAll, numbers]
  | cons a as ih =>
    intro w h
    obtain ⟨k, hk⟩ := h.other a (by simp)
    have he := h.enabled a (by simp) k hk
    have ht : Plain w en as := ⟨fun b hb => h.other b (List.mem_cons_of_mem _ hb), fun b hb => h.enabled b (List.mem_cons_of_mem _ hb)⟩
    have hn : numbers (a :: as) = k :: numbers as := by simp [numbers, hk]
    simp only [pushAll, he, hn]
    cases hek : en k with
    | true =>
      have hpush : w.push p a = .ok ⟨w.pager, w.calls ++ [.push k]⟩ := by simp only [World.push, hk]
      simp only [if_true, hpush]
      rw [ih ⟨w.pager, w.calls ++ [Call.push k]⟩ (ht.keep rfl)]
      simp [hek, call]
    | false =>
      simp only [Bool.false_eq_true, if_false]
      rw [ih _ ht]
      simp [hek]

theorem releaseAll_plain (en : Nat → Bool) (as : List Act) : ∀ w, Plain w en as →
    releaseAll w as = ⟨w.pager, w.calls ++ (((numbers as).filter en).flatMap fun a => [Switch.Eff.release a]).flatMap call⟩ := by
  induction as with
  | nil => intro w _; simp [releaseAll, numbers]
  | cons a as ih =>
    intro w h
    obtain ⟨k, hk⟩ := h.other a (by simp)
    have he := h.enabled a (by simp) k hk
    have ht : Plain w en as := ⟨fun b hb => h.other b (List.mem_cons_of_mem _ hb), fun b hb => h.enabled b (List.mem_cons_of_mem _ hb)⟩
    have hn : numbers (a :: as) = k :: numbers as := by simp [numbers, hk]
    simp only [releaseAll, he, hn]
    cases hek : en k with
    | true =>
      have hrel : w.release a = ⟨w.pager, w.calls ++ [.release k]⟩ := by simp only [World.release, hk]
      simp only [if_true, hrel]
      rw [ih ⟨w.pager, w.calls ++ [Call.release k]⟩ (ht.keep rfl)]
      simp [hek, call]
    | false =>
      simp only [Bool.false_eq_true, if_false]
      rw [ih _ ht]
      simp [hek]

theorem clickAll_plain (p : Pager) (en : Nat → Bool) (as : List Act) : ∀ w, Plain w en as →
    clickAll p w as = .ok ⟨w.pager, w.calls ++ (((numbers as).filter en).flatMap fun a => [Switch.Eff.push a, .release a]).flatMap call⟩ := by
  induction as with
  | nil => intro w _; simp [clickAll, numbers]
  | cons a as ih =>
    intro w h
    obtain ⟨k, hk⟩ := h.other a (by simp)
    have he := h.enabled a (by simp) k hk
    have ht : Plain w en as := ⟨fun b hb => h.other b (List.mem_cons_of_mem _ hb), fun b hb => h.enabled b (List.mem_cons_of_mem _ hb)⟩
    have hn : numbers (a :: as) = k :: numbers as := by simp [numbers, hk]
    simp only [clickAll, he, hn]
    cases hek : en k with
    | true =>
      have hpush : w.push p a = .ok ⟨w.pager, w.calls ++ [.push k]⟩ := by simp only [World.push, hk]
      have hrel : (⟨w.pager, w.calls ++ [.push k]⟩ : World).release a = ⟨w.pager, w.calls ++ [.push k] ++ [.release k]⟩ := by
        simp only [World.release, hk]
      simp only [if_true, hpush, hrel]
      rw [ih ⟨w.pager, w.calls ++ [Call.push k] ++ [Call.release k]⟩ (ht.keep rfl)]
      simp [hek, call]
    | false =>
      simp only [Bool.false_eq_true, if_false]
      rw [ih _ ht]
      simp [hek]

theorem numbers_nil (as : List Act) : numbers as = [] ↔ as = [] := by cases as <;> simp [numbers]

theorem checkHold_plain (p : Pager) (c : Config) (en : Nat → Bool) (st : Switch.State) (w : World) (down : Bool) (now : Int) (h : Plain w en c.hold) :
    checkHold p c st w now =
      let r := Switch.checkHold ⟨numbers c.actions, numbers c.hold, c.rep⟩ st ⟨down, now, en, none⟩
      .ok (r.1, r.2.1, ⟨w.pager, w.calls ++ r.2.2.flatMap call⟩) := by
  simp only [checkHold, Switch.checkHold]
  cases (st.period.exceeded now).1 with
  | true =>
    simp only [if_true]
    rw [clickAll_plain p en c.hold w h]
    simp only [Switch.fireHold]
  | false => simp

theorem releaseActions_plain (p : Pager) (c : Config) (en : Nat → Bool) (st : Switch.State) (w : World) (down : Bool) (now : Int)
    (h : Plain w en c.actions) :
    releaseActions p c st w =
      let r := Switch.releaseActions ⟨numbers c.actions, numbers c.hold, c.rep⟩ st ⟨down, now, en, none⟩
      .ok (r.1, ⟨w.pager, w.calls ++ r.2.flatMap call⟩) := by
  simp only [releaseActions, Switch.releaseActions]
  by_cases hh : c.hold = []
  · rw [if_pos hh, releaseAll_plain en c.actions w h]
    simp [(numbers_nil c.hold).mpr hh]
  · rw [if_neg hh, clickAll_plain p en c.actions w h]
    have : numbers c.hold ≠ [] := fun e => hh ((numbers_nil _).mp e)
    simp [this]

end C168

/-- **C168**, one page: on each page, a switch without actions that change pages does exactly what a switch without pages does with its
actions of this page (`en` tells which numbers these are): short and long presses, repeats and clicks are those of the claims about switches. -/
theorem C168_switch (p : Pager) (page : Page) (w : World) (hw : Current p w.pager page) (c : Config) (en : Nat → Bool)
    (hk : ∀ a ∈ c.actions ++ c.hold, ∃ k, a.kind = .other k ∧ (en k = true ↔ a.page = none ∨ a.page = some page.id))
    (st : Switch.State) (down : Bool) (now : Int) :
    process p c st w down now =
      .ok ((Switch.process ⟨numbers c.actions, numbers c.hold, c.rep⟩ st ⟨down, now, en, none⟩).1,
        ⟨w.pager, w.calls ++ (Switch.process ⟨numbers c.actions, numbers c.hold, c.rep⟩ st ⟨down, now, en, none⟩).2.flatMap call⟩) := by
  have hplain : ∀ as : List Act, (∀ a ∈ as, a ∈ c.actions ++ c.hold) → C168.Plain w en as := by
    intro as has
    refine ⟨fun a ha => ?_, fun a ha k hak => ?_⟩
    · obtain ⟨k, h1, -⟩ := hk a (has a ha)
      exact ⟨k, h1⟩
    · obtain ⟨k', h1, h2⟩ := hk a (has a ha)
      rw [hak] at h1
      cases h1
      have hiff : w.enabled a = true ↔ en k = true := by
        rw [h2, World.enabled]
        cases hp : a.page with
        | none => simp
        | some id =>
          simp only [PySwitch.Local.pagerEnabled, hw.2.2, beq_iff_eq, reduceCtorEq, Option.some.injEq, false_or]
      cases h3 : w.enabled a <;> cases h4 : en k <;> simp_all
  have ha := hplain c.actions (fun a h => List.mem_append_left _ h)
  have hh := hplain c.hold (fun a h => List.mem_append_right _ h)
  have hpu : ∀ st : Switch.State, pushed p c st w now =
      .ok ((Switch.processPushed ⟨numbers c.actions, numbers c.hold, c.rep⟩ st ⟨down, now, en, none⟩).1,
        ⟨w.pager, w.calls ++ (Switch.processPushed ⟨numbers c.actions, numbers c.hold, c.rep⟩ st ⟨down, now, en, none⟩).2.flatMap call⟩) := by
    intro st
    simp only [pushed, Switch.processPushed, Switch.pushActions]
    by_cases hp : st.pushedState = true
    · simp [hp]
    · rw [if_neg hp, if_neg hp]
      by_cases hn : c.hold = []
      · rw [if_pos hn, C168.pushAll_plain p en c.actions w ha]
        simp [(C168.numbers_nil c.hold).mpr hn]
      · rw [if_neg hn]
        have : numbers c.hold ≠ [] := fun e => hn ((C168.numbers_nil _).mp e)
        simp [this]
  have hre : ∀ st : Switch.State, release p c st w now =
      .ok ((Switch.release ⟨numbers c.actions, numbers c.hold, c.rep⟩ st ⟨down, now, en, none⟩).1,
        ⟨w.pager, w.calls ++ (Switch.release ⟨numbers c.actions, numbers c.hold, c.rep⟩ st ⟨down, now, en, none⟩).2.flatMap call⟩) := by
    intro st
    simp only [release, Switch.release]
    by_cases hn : c.hold = []
    · rw [if_pos hn, C168.releaseActions_plain p c en st w down now ha]
      simp [(C168.numbers_nil c.hold).mpr hn]
    · rw [if_neg hn]
      have hn' : numbers c.hold ≠ [] := fun e => hn ((C168.numbers_nil _).mp e)
      rw [if_pos hn']
      by_cases hact : st.holdActive = true
      · simp only [hact, Bool.not_true, Bool.false_eq_true, if_false, not_true_eq_false]
        rw [C168.checkHold_plain p c en st w down now hh]
        generalize hch : Switch.checkHold ⟨numbers c.actions, numbers c.hold, c.rep⟩ st ⟨down, now, en, none⟩ = r
        obtain ⟨b, st1, es⟩ := r
        cases b with
        | true => simp
        | false =>
          have hes : es = [] := by
            simp only [Switch.checkHold] at hch
            split at hch
            · simp at hch
            · simp only [Prod.mk.injEq] at hch; exact hch.2.2.symm
          subst hes
          simp only [Bool.false_eq_true, if_false, List.flatMap_nil, List.append_nil, List.nil_append]
          by_cases hwas : st1.holdWasActive = true
          · simp [hwas]
          · rw [if_neg hwas, if_neg hwas]
            exact C168.releaseActions_plain p c en st1 w down now ha
      · simp [hact]
  simp only [process, Switch.process]
  cases down with
  | false =>
    simp only [Bool.not_false, if_true, Bool.false_eq_true, not_false_eq_true]
    by_cases hp : st.pushedState = true
    · rw [if_pos hp, if_pos hp]
      exact hre _
    · simp [hp]
  | true =>
    simp only [Bool.not_true, Bool.false_eq_true, if_false, not_true_eq_false]
    by_cases hact : st.holdActive = true
    · rw [if_pos hact, if_pos hact, C168.checkHold_plain p c en st w true now hh]
      generalize hch : Switch.checkHold ⟨numbers c.actions, numbers c.hold, c.rep⟩ st ⟨true, now, en, none⟩ = r
      obtain ⟨b, st1, es⟩ := r
      cases b with
      | true => simp
      | false =>
        have hes : es = [] := by
          simp only [Switch.checkHold] at hch
          split at hch
          · simp at hch
          · simp only [Prod.mk.injEq] at hch; exact hch.2.2.symm
        subst hes
        simp only [Bool.false_eq_true, if_false, List.flatMap_nil, List.append_nil]
        exact hpu st1
    · rw [if_neg hact, if_neg hact]
      exact hpu st

/-! ### A panel with two pages -/

def c168Pager : Pager := { pages := [⟨.num 1, none, none⟩, ⟨.num 2, none, none⟩] }

/-- Switch 0: an action for each page; switch 1: the pager; switch 2: an action of all pages. -/
def c168Panel : List Config :=
  [{ actions := [⟨.other 0, some (.num 1)⟩, ⟨.other 1, some (.num 2)⟩] }, { actions := [⟨.pager, none⟩] }, { actions := [⟨.other 2, none⟩] }]

/-- The switches are used one after the other. -/
def c168Run : List Sample :=
  [⟨0, true, 1⟩, ⟨0, false, 2⟩, ⟨1, true, 3⟩, ⟨1, false, 4⟩, ⟨0, true, 5⟩, ⟨2, true, 6⟩, ⟨0, false, 7⟩, ⟨2, false, 8⟩]

theorem c168Good : ∀ c ∈ c168Panel, Good c := by
  intro c hc
  simp only [c168Panel, List.mem_cons, List.not_mem_nil, or_false] at hc
  rcases hc with rfl | rfl | rfl
  · refine ⟨rfl, .inl ?_⟩
    intro a ha
    simp only [List.mem_cons, List.not_mem_nil, or_false] at ha
    rcases ha with rfl | rfl
    · exact ⟨0, rfl⟩
    · exact ⟨1, rfl⟩
  · exact ⟨rfl, .inr ⟨_, [], rfl, by simp⟩⟩
  · refine ⟨rfl, .inl ?_⟩
    intro a ha
    simp only [List.mem_cons, List.not_mem_nil, or_false] at ha
    subst ha
    exact ⟨2, rfl⟩

theorem c168Quiet : Quiet c168Panel (fun _ => false) c168Run := by
  refine ⟨?_, ?_, ?_, ?_, ?_, ?_, ?_, ?_, trivial⟩
  all_goals
    intro c a hc ha hd hu j hj hne
    simp only [c168Panel, List.length_cons, List.length_nil] at hj
    first
      | (exfalso; revert hd; simp; done)
      | (simp [c168Panel] at hc; subst hc; exfalso; revert ha; simp [changer, Option.filter, Spec.Kind.changes]; done)
      | (simp only [after]; repeat (first | (split <;> simp_all; done) | rfl); done)
      | (have : j = 0 ∨ j = 1 ∨ j = 2 := by omega
         rcases this with rfl | rfl | rfl <;> first | rfl | (exact absurd rfl hne))

example : ∃ s, (start c168Pager c168Panel 600).run c168Pager c168Panel c168Run = .ok s ∧
    s.world.calls = [.push 0, .release 0, .reset, .push 1, .push 2, .release 1, .release 2] ∧ s.world.pager.id = .num 2 :=
  ⟨_, rfl, rfl, rfl⟩

example : Once c168Panel 0 1 := by
  intro j c hc
  match j, hc with
  | 0, hc => simp [c168Panel] at hc; subst hc; decide
  | 1, hc => simp [c168Panel] at hc; subst hc; decide
  | 2, hc => simp [c168Panel] at hc; subst hc; decide
  | j + 3, hc => simp [c168Panel] at hc

/-- A switch with hold actions, for `C168_hold`: the page is changed while it is down. -/
def c168Hold : List Config :=
  [{ actions := [⟨.other 0, some (.num 1)⟩, ⟨.other 1, some (.num 2)⟩], hold := [⟨.other 3, none⟩] }, { actions := [⟨.pager, none⟩] }]

example : (∃ s, (start c168Pager c168Hold 600).run c168Pager c168Hold [⟨0, true, 1⟩, ⟨1, true, 2⟩, ⟨0, false, 3⟩] = .ok s ∧
    s.world.calls = [.reset, .push 1, .release 1]) ∧ ∀ c ∈ c168Hold, c.hold = [] → ∀ a ∈ c.actions, a.kind ≠ .other 1 :=
  ⟨⟨_, rfl, rfl⟩, by decide⟩

/-- The hypothesis of `C168_switch` for page 2. -/
example : ∀ a ∈ ([⟨.other 0, some (.num 1)⟩, ⟨.other 1, some (.num 2)⟩] : List Act) ++ [⟨.other 3, none⟩],
    ∃ k, a.kind = .other k ∧ ((k != 0) = true ↔ a.page = none ∨ a.page = some (.num 2)) := by
  intro a ha
  simp only [List.cons_append, List.nil_append, List.mem_cons, List.not_mem_nil, or_false] at ha
  rcases ha with rfl | rfl | rfl
  · exact ⟨0, rfl, by decide⟩
  · exact ⟨1, rfl, by decide⟩
  · exact ⟨3, rfl, by decide⟩

/-- **C168** does not hold if the page is changed while another switch is down: the action which was pushed is never released, so that a momentary
button stays on, and the action of the new page is released without having been pushed. -/
theorem C168_held_witness : ∃ s, (start c168Pager c168Panel 600).run c168Pager c168Panel [⟨0, true, 1⟩, ⟨1, true, 2⟩, ⟨0, false, 3⟩] = .ok s ∧
    s.world.calls = [.push 0, .reset, .release 1] ∧ sent .momentary 0 s.world.calls = [true] :=
  ⟨_, rfl, rfl, by decide⟩

/-- **C168**: this also concerns actions of all pages: they are released, but since they have been reset, a momentary button stays on. -/
theorem C168_reset_witness : ∃ s, (start c168Pager c168Panel 600).run c168Pager c168Panel [⟨2, true, 1⟩, ⟨1, true, 2⟩, ⟨2, false, 3⟩] = .ok s ∧
    s.world.calls = [.push 2, .reset, .release 2] ∧ sent .momentary 2 s.world.calls = [true] :=
  ⟨_, rfl, rfl, by decide⟩

/-- **C168** does not hold for a switch with an action of a page behind the pager: pressing it on page 1 also pushes the action of page 2. -/
theorem C168_same_switch_witness : ∃ s,
    (start c168Pager [{ actions := [⟨.pager, none⟩, ⟨.other 0, some (.num 2)⟩] }] 600).run c168Pager
      [{ actions := [⟨.pager, none⟩, ⟨.other 0, some (.num 2)⟩] }] [⟨0, true, 1⟩] = .ok s ∧ s.world.calls = [.reset, .push 0] :=
  ⟨_, rfl, rfl⟩

/-- **C168** does not hold for a switch which is meant to toggle pages with a "Select Page" action on each of them: from page 1, it comes back to
page 1 at once. -/
theorem C168_toggle_witness : ∃ s,
    (start c168Pager [{ actions := [⟨.select (.num 2), some (.num 1)⟩, ⟨.select (.num 1), some (.num 2)⟩] }] 600).run c168Pager
      [{ actions := [⟨.select (.num 2), some (.num 1)⟩, ⟨.select (.num 1), some (.num 2)⟩] }] [⟨0, true, 1⟩, ⟨0, false, 2⟩] = .ok s ∧
    s.world.pager.id = .num 1 :=
  ⟨_, rfl, rfl⟩

end PySwitch.Props
