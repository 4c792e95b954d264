import Verif.Lemmas.Switch
/-
Properties C12, C13, C14, C15: foot switches.
-/
namespace PySwitch.Props
open PySwitch PySwitch.Switch PySwitch.Switch.Spec

/-- C12: for a switch without hold actions (and without override), over any samples, all calls of actions are
given by edge detection on the hardware state: one push of each enabled action per press edge, one release per
release edge, in list order, nothing in between. -/
theorem C12_edges (c : Config) (hc : c.actionsHold = []) (holdTime : Int) (ss : List Sample)
    (ho : ∀ s ∈ ss, s.override = none) :
    (run c (initial holdTime) ss).1 = edges c.actions false ss := by
  have key : ∀ (st : State), st.holdActive = false →
      (run c st ss).1 = edges c.actions st.pushedState ss := by
    induction ss with
    | nil => intro st _; rfl
    | cons s ss ih =>
      intro st hst
      have ih := ih (fun x hx => ho x (by simp [hx]))
      have hs := ho s (by simp)
      obtain ⟨p, a, w, per⟩ := st
      simp only at hst
      subst hst
      simp only [run, edges]
      cases hp : s.pushed <;> cases p <;>
        simp [process, hp, hs, release, hc, releaseActions, processPushed, pushActions] <;>
        (try rw [ih _ rfl])
      all_goals first | rfl | exact ⟨List.map_eq_flatMap.symm, rfl⟩
  exact key (initial holdTime) rfl

/-- C12: the calls of an action which stays enabled strictly alternate, starting with push. -/
theorem C12_alternate (c : Config) (hc : c.actionsHold = []) (holdTime : Int) (ss : List Sample)
    (ho : ∀ s ∈ ss, s.override = none) (a : Nat) (ha : c.actions.count a = 1)
    (he : ∀ s ∈ ss, s.enabled a = true) :
    Alternates true (eventsOf a (run c (initial holdTime) ss).1.flatten) := by
  rw [C12_edges c hc holdTime ss ho]
  have hcount : ∀ (s : Sample), s.enabled a = true →
      eventsOf a ((c.actions.filter s.enabled).map .push) = [true] ∧
      eventsOf a ((c.actions.filter s.enabled).map .release) = [false] := by
    intro s hs
    have h1 : (c.actions.filter s.enabled).count a = 1 := by
      rw [List.count_filter hs, ha]
    generalize c.actions.filter s.enabled = l at h1
    have h0 : ∀ l : List Nat, eventsOf a (l.map .push) = List.replicate (l.count a) true ∧
        eventsOf a (l.map .release) = List.replicate (l.count a) false := by
      intro l
      induction l with
      | nil => exact ⟨rfl, rfl⟩
      | cons x l ih =>
        obtain ⟨i1, i2⟩ := ih
        simp only [eventsOf, List.map_cons, List.filterMap_cons] at i1 i2 ⊢
        by_cases hx : x = a
        · simp [hx, i1, i2, List.replicate_succ]
        · simp [hx, i1, i2]
    have := h0 l
    rw [h1] at this
    exact this
  have happ : ∀ a : Nat, ∀ x y : List Eff, eventsOf a (x ++ y) = eventsOf a x ++ eventsOf a y := by
    intro a x y; simp [eventsOf]
  have key : ∀ before : Bool, Alternates (!before) (eventsOf a (edges c.actions before ss).flatten) := by
    induction ss with
    | nil => intro b; trivial
    | cons s ss ih =>
      intro before
      have ih := ih (fun x hx => ho x (by simp [hx])) (fun x hx => he x (by simp [hx]))
      obtain ⟨h1, h2⟩ := hcount s (he s (by simp))
      simp only [edges, List.flatten_cons]
      rw [happ]
      have i := ih s.pushed
      cases hp : s.pushed <;> cases before <;> rw [hp] at i <;>
        simp only [Bool.not_true, Bool.not_false, Bool.and_true, Bool.and_false,
          Bool.false_eq_true, h1, h2, ↓reduceIte] <;>
        first | exact i | exact ⟨rfl, i⟩
  exact key false

-- two actions; the second is disabled; pressed for two samples, released, pressed again
example : (run { actions := [1, 2] } (initial 600)
      [⟨true, 0, (· == 1), none⟩, ⟨true, 5, (· == 1), none⟩, ⟨false, 9, (· == 1), none⟩]).1
    = [[.push 1], [], [.release 1]] := by decide
example : ({ actions := [1, 2] } : Config).actions.count 1 = 1 := by decide

/-- What is expected of one block of a switch with hold actions without repeat. -/
def expectedNoRepeat (c : Config) (holdTime : Int) : Block → List (List Eff)
  | .idle _ => [[]]
  | .press p => [] :: shortOrLong c.actions c.actionsHold holdTime p.first.now (p.held ++ [p.last])

/-- C13: for a switch with hold actions (no repeat), in every history of presses, each press clicks the hold
actions once, with the first sample after the hold time, and nothing else; or, if it is released within the
hold time, clicks the normal actions once on release, and nothing else. -/
theorem C13_short_or_long (c : Config) (hc : c.actionsHold ≠ []) (hr : c.holdRepeat = false) (holdTime : Int)
    (bs : List Block) (hb : ∀ b ∈ bs, b.Ok) :
    (run c (initial holdTime) (bs.flatMap Block.samples)).1 = bs.flatMap (expectedNoRepeat c holdTime) := by
  have key : ∀ st, Clean holdTime st →
      (run c st (bs.flatMap Block.samples)).1 = bs.flatMap (expectedNoRepeat c holdTime) := by
    induction bs with
    | nil => intro st _; rfl
    | cons b bs ih =>
      intro st hst
      have ih := ih (fun x hx => hb x (by simp [hx]))
      have hbok := hb b (by simp)
      rw [List.flatMap_cons, List.flatMap_cons, run_append]
      cases b with
      | idle s =>
        have e := process_idle c st s hbok hst.1
        simp only [Block.samples, run, e, expectedNoRepeat]
        rw [ih st hst]
      | press p =>
        obtain ⟨h1, h2, h3, h4⟩ := hbok
        have e := process_press c hc holdTime st hst p.first h1 (h4 _ (by simp [Press.samples]))
        have ho := h4 p.last (by simp [Press.samples])
        obtain ⟨r1, r2⟩ := run_press_noRepeat c hc hr ⟨true, true, false, ⟨holdTime, p.first.now⟩⟩
          rfl rfl rfl p.held p.last h2 h3 ho
        simp only [Block.samples, Press.samples, run, e, expectedNoRepeat]
        rw [r1, ih _ r2]
  exact key _ (clean_initial _)

/-- C13: the expectation itself: a press never clicks both kinds of actions. If all samples are within the hold
time there is exactly the click of the normal actions on release; otherwise there is exactly the click of the
hold actions. -/
theorem C13_exclusive (actions hold : List Nat) (holdTime t0 : Int) (ss : List Sample) (last : Sample) :
    (shortOrLong actions hold holdTime t0 (ss ++ [last])).flatten
      = match (ss ++ [last]).find? (fun s => s.now - t0 > holdTime) with
        | some s => click hold s
        | none => click actions last := by
  induction ss with
  | nil =>
    simp only [List.nil_append, shortOrLong, List.find?_cons]
    by_cases h : last.now - t0 > holdTime <;> simp [h]
  | cons s ss ih =>
    simp only [List.cons_append, shortOrLong, List.find?_cons]
    by_cases h : s.now - t0 > holdTime
    · simp [h]
    · simp [h, ih]

/-- A sample without override and with all actions enabled. -/
def smp (pushed : Bool) (now : Int) : Sample := ⟨pushed, now, fun _ => true, none⟩

example : ∀ b ∈ [Block.idle (smp false 5), .press ⟨smp true 10, [smp true 500], smp false 600⟩,
    .press ⟨smp true 1000, [smp true 1601, smp true 3000], smp false 3001⟩], b.Ok := by
  simp [Block.Ok, Press.Ok, Press.samples, smp]; grind
example : (run { actions := [1], actionsHold := [2] } (initial 600)
    ([Block.idle (smp false 5), .press ⟨smp true 10, [smp true 500], smp false 600⟩,
    .press ⟨smp true 1000, [smp true 1601, smp true 3000], smp false 3001⟩].flatMap Block.samples)).1
    = [[], [], [], [.push 1, .release 1], [], [.push 2, .release 2], [], []] := by decide

/-- What is expected of one block of a switch with hold actions and repeat. -/
def expectedRepeat (c : Config) (holdTime : Int) : Block → List (List Eff)
  | .idle _ => [[]]
  | .press p => [] :: repeated c.actions c.actionsHold holdTime p.first.now false (p.held ++ [p.last])

/-- The hold time has not elapsed again at the moment of the release of this press. -/
def NoFireOnRelease (holdTime : Int) : Block → Prop
  | .idle _ => True
  | .press p => p.last.now - lastFire holdTime p.first.now p.held ≤ holdTime

/-- C14 (partial): with repeat, in every history of presses, each press clicks the hold actions whenever more
than the hold time has passed since the press or the last click; the normal actions are clicked only on
release of a press without hold click. Missing: histories in which an earlier press was released at a moment
when the hold time had just elapsed again (`NoFireOnRelease` is required for all presses but the last). There
the claim is false, see `C14_stale_hold`. -/
theorem C14_repeat_partial (c : Config) (hc : c.actionsHold ≠ []) (hr : c.holdRepeat = true) (holdTime : Int)
    (bs : List Block) (hb : ∀ b ∈ bs, b.Ok) (hn : ∀ b ∈ bs.dropLast, NoFireOnRelease holdTime b) :
    (run c (initial holdTime) (bs.flatMap Block.samples)).1 = bs.flatMap (expectedRepeat c holdTime) := by
  have key : ∀ st, Clean holdTime st →
      (run c st (bs.flatMap Block.samples)).1 = bs.flatMap (expectedRepeat c holdTime) := by
    induction bs with
    | nil => intro st _; rfl
    | cons b bs ih =>
      intro st hst
      have ih := ih (fun x hx => hb x (by simp [hx])) (fun x hx => hn x (by
        cases bs with
        | nil => simp at hx
        | cons y ys => simp at hx ⊢; exact .inr hx))
      have hbok := hb b (by simp)
      rw [List.flatMap_cons, List.flatMap_cons, run_append]
      cases b with
      | idle s =>
        have e := process_idle c st s hbok hst.1
        simp only [Block.samples, run, e, expectedRepeat]
        rw [ih st hst]
      | press p =>
        obtain ⟨h1, h2, h3, h4⟩ := hbok
        have e := process_press c hc holdTime st hst p.first h1 (h4 _ (by simp [Press.samples]))
        have ho := h4 p.last (by simp [Press.samples])
        obtain ⟨r1, r2⟩ := run_press_repeat c hc hr ⟨true, true, false, ⟨holdTime, p.first.now⟩⟩
          rfl rfl p.held p.last h2 h3 ho
        simp only [Block.samples, Press.samples, run, e, expectedRepeat]
        rw [r1]
        cases bs with
        | nil => simp [run]
        | cons y ys => rw [ih _ (r2 (hn (.press p) (by simp)))]
  exact key _ (clean_initial _)

/-- C14: two hold clicks during the same press are more than the hold time apart, and so is the first one from
the press. -/
theorem C14_spacing (actions hold : List Nat) (holdTime : Int) (h0 : 0 ≤ holdTime) (a : Nat)
    (hna : a ∉ actions) (t0 : Int) (fired : Bool) (ss : List Sample)
    (hm : (t0 :: ss.map (·.now)).Pairwise (· ≤ ·)) :
    (∀ i : Nat, ∀ o s, (repeated actions hold holdTime t0 fired ss)[i]? = some o → ss[i]? = some s →
      .push a ∈ o → s.now - t0 > holdTime) ∧
    (∀ i j : Nat, i < j → ∀ o₁ o₂ s₁ s₂, (repeated actions hold holdTime t0 fired ss)[i]? = some o₁ →
      (repeated actions hold holdTime t0 fired ss)[j]? = some o₂ → ss[i]? = some s₁ → ss[j]? = some s₂ →
      .push a ∈ o₁ → .push a ∈ o₂ → s₂.now - s₁.now > holdTime) := by
  induction ss generalizing t0 fired with
  | nil => exact ⟨by intro i o s h; simp [repeated] at h, by intro i j _ o₁ o₂ s₁ s₂ h; simp [repeated] at h⟩
  | cons x ss ih =>
    have hna' : ∀ s, Eff.push a ∉ click actions s := by
      intro s hin
      simp only [click, List.mem_flatMap, List.mem_filter] at hin
      obtain ⟨b, ⟨hb, -⟩, hb2⟩ := hin
      simp at hb2
      exact hna (hb2 ▸ hb)
    simp only [List.map_cons, List.pairwise_cons] at hm
    obtain ⟨hm1, hm2, hm3⟩ := hm
    have hx0 : t0 ≤ x.now := hm1 x.now (by simp)
    simp only [repeated]
    by_cases ht : x.now - t0 > holdTime
    · simp only [if_pos ht]
      obtain ⟨i1, i2⟩ := ih x.now true (by
        simp only [List.pairwise_cons]
        exact ⟨hm2, hm3⟩)
      constructor
      · intro i o s ho hs hp
        cases i with
        | zero => simp at hs; subst hs; exact ht
        | succ i =>
          simp only [List.getElem?_cons_succ] at ho hs
          have := i1 i o s ho hs hp
          omega
      · intro i j hij o₁ o₂ s₁ s₂ ho1 ho2 hs1 hs2 hp1 hp2
        cases j with
        | zero => omega
        | succ j =>
          simp only [List.getElem?_cons_succ] at ho2 hs2
          cases i with
          | zero =>
            simp at hs1
            subst hs1
            exact i1 j o₂ s₂ ho2 hs2 hp2
          | succ i =>
            simp only [List.getElem?_cons_succ] at ho1 hs1
            exact i2 i j (by omega) o₁ o₂ s₁ s₂ ho1 ho2 hs1 hs2 hp1 hp2
    · simp only [if_neg ht]
      have hno : ∀ o, (if (ss.isEmpty && !fired) = true then click actions x else []) = o →
          Eff.push a ∉ o := by
        rintro o rfl
        split
        · exact hna' x
        · simp
      obtain ⟨i1, i2⟩ := ih t0 fired (by
        simp only [List.pairwise_cons]
        exact ⟨fun y hy => hm1 y (by simp [hy]), hm3⟩)
      constructor
      · intro i o s ho hs hp
        cases i with
        | zero =>
          simp at ho
          exact absurd hp (hno o (by simpa using ho))
        | succ i =>
          simp only [List.getElem?_cons_succ] at ho hs
          exact i1 i o s ho hs hp
      · intro i j hij o₁ o₂ s₁ s₂ ho1 ho2 hs1 hs2 hp1 hp2
        cases j with
        | zero => omega
        | succ j =>
          simp only [List.getElem?_cons_succ] at ho2 hs2
          cases i with
          | zero =>
            simp at ho1
            exact absurd hp1 (hno o₁ (by simpa using ho1))
          | succ i =>
            simp only [List.getElem?_cons_succ] at ho1 hs1
            exact i2 i j (by omega) o₁ o₂ s₁ s₂ ho1 ho2 hs1 hs2 hp1 hp2

example : (run { actions := [1], actionsHold := [2], holdRepeat := true } (initial 600)
    (([Block.press ⟨smp true 10, [smp true 700, smp true 1000, smp true 1400], smp false 1900⟩,
      .press ⟨smp true 2000, [], smp false 2100⟩]).flatMap Block.samples)).1
    = [[], [.push 2, .release 2], [], [.push 2, .release 2], [], [], [.push 1, .release 1]] := by decide
example : ∀ b ∈ [Block.press ⟨smp true 10, [smp true 700, smp true 1000, smp true 1400], smp false 1900⟩],
    b.Ok ∧ NoFireOnRelease 600 b := by
  simp [Block.Ok, Press.Ok, Press.samples, smp, NoFireOnRelease, lastFire]; grind

/-- The full C14 is false of the code: if a press is released just when the hold time has elapsed, the state is
not cleaned up. The next press, although short, clicks the hold action at once and never the normal action. -/
theorem C14_stale_hold :
    ∃ (c : Config) (p₁ p₂ : Press), c.actions = [1] ∧ c.actionsHold = [2] ∧ c.holdRepeat = true ∧
      p₁.Ok ∧ p₂.Ok ∧ p₂.last.now - p₂.first.now ≤ 600 ∧
      (∀ s ∈ p₁.samples ++ p₂.samples, s.enabled = fun _ => true) ∧
      (p₁.samples ++ p₂.samples).Pairwise (fun a b => a.now ≤ b.now) ∧
      (run c (initial 600) (p₁.samples ++ p₂.samples)).1
        = [[], [.push 2, .release 2], [.push 2, .release 2], []] := by
  refine ⟨{ actions := [1], actionsHold := [2], holdRepeat := true },
    ⟨smp true 1000, [], smp false 1700⟩, ⟨smp true 3000, [], smp false 3100⟩, rfl, rfl, rfl, ?_, ?_, ?_, ?_, ?_, ?_⟩
  · simp [Press.Ok, Press.samples, smp]
  · simp [Press.Ok, Press.samples, smp]
  · simp [smp]
  · simp [Press.samples, smp]
  · simp [Press.samples, smp]
  · decide

/-- C15 (partial): while a declining override is installed, no own action is called, whatever the switch does.
Missing: the override being installed in the middle of a press of a switch with hold actions (`holdActive`);
there the claim is false, see `C15_stale_hold`. -/
theorem C15_declining_partial (c : Config) (st : State) (hst : st.holdActive = false) (ss : List Sample)
    (ho : ∀ s ∈ ss, s.override = some (false, false)) :
    ∀ es ∈ (run c st ss).1, own es = [] := by
  induction ss generalizing st with
  | nil => simp [run]
  | cons s ss ih =>
    have hs := ho s (by simp)
    have hproc : own (process c st s).2 = [] ∧ (process c st s).1.holdActive = false := by
      unfold process processPushed
      cases hp : s.pushed <;> cases hps : st.pushedState <;> simp [hst, hs, own]
    simp only [run, List.mem_cons]
    rintro es (rfl | h)
    · exact hproc.1
    · exact ih _ hproc.2 (fun x hx => ho x (by simp [hx])) es h

/-- C15: switches without hold actions are always in the situation required by `C15_declining_partial`. -/
theorem C15_no_hold (c : Config) (hc : c.actionsHold = []) (holdTime : Int) (before ss : List Sample)
    (ho : ∀ s ∈ ss, s.override = some (false, false)) :
    ∀ es ∈ (run c (run c (initial holdTime) before).2 ss).1, own es = [] := by
  apply C15_declining_partial _ _ _ _ ho
  have : ∀ st : State, st.holdActive = false → (run c st before).2.holdActive = false := by
    induction before with
    | nil => intro st h; exact h
    | cons s ss ih =>
      intro st h
      simp only [run]
      apply ih
      unfold process processPushed release pushActions
      cases hp : s.pushed <;> cases hps : st.pushedState <;> rcases hov : s.override with _ | ⟨x, y⟩ <;>
        simp [h, hc, releaseActions] <;> (try cases x) <;> (try cases y) <;> simp
  exact this _ rfl

/-- C15: an override which accepts (returns a true value) does not change what the own actions get. -/
theorem C15_accepting (c : Config) (st : State) (ss : List Sample)
    (ho : ∀ s ∈ ss, s.override = some (true, true)) :
    (run c st ss).1.map own = (run c st (ss.map (fun s => { s with override := none }))).1.map own := by
  induction ss generalizing st with
  | nil => rfl
  | cons s ss ih =>
    have hs := ho s (by simp)
    have hproc : (process c st s).1 = (process c st { s with override := none }).1 ∧
        own (process c st s).2 = own (process c st { s with override := none }).2 := by
      have e1 : ∀ x : State × List Eff, own (Eff.overrideRelease :: x.2) = own x.2 := by
        intro x; simp [own]
      have e2 : ∀ x : State × List Eff, own (Eff.overridePush :: x.2) = own x.2 := by
        intro x; simp [own]
      unfold process processPushed
      rw [hs]
      simp only [if_true]
      by_cases hp : s.pushed = true
      · have hpn : ¬ ¬ s.pushed = true := fun h => h hp
        simp only [if_neg hpn]
        have hck : checkHold c st { s with override := none } = checkHold c st s := rfl
        rw [hck]
        split
        · split
          · exact ⟨rfl, rfl⟩
          · split
            · exact ⟨rfl, rfl⟩
            · exact ⟨rfl, e2 (pushActions c _ s)⟩
        · split
          · exact ⟨rfl, rfl⟩
          · exact ⟨rfl, e2 (pushActions c _ s)⟩
      · simp only [if_pos hp]
        split
        · refine ⟨rfl, ?_⟩
          exact e1 (release c _ s)
        · exact ⟨rfl, rfl⟩
    simp only [List.map_cons, run]
    rw [hproc.2, ih _ (fun x hx => ho x (by simp [hx])), hproc.1]

/-- The full C15 is false of the code: a switch with hold actions is pressed, then a declining override is
installed and the switch is released. The next press edge clicks the hold action in spite of the override. -/
theorem C15_stale_hold :
    ∃ (c : Config) (s₀ : Sample) (ss : List Sample), s₀.override = none ∧
      (∀ s ∈ ss, s.override = some (false, false)) ∧
      (run c (run c (initial 600) [s₀]).2 ss).1 = [[.overrideRelease], [.push 2, .release 2]] :=
  ⟨{ actions := [1], actionsHold := [2] }, smp true 1000,
    [⟨false, 1100, fun _ => true, some (false, false)⟩, ⟨true, 2000, fun _ => true, some (false, false)⟩],
    rfl, by simp, by decide⟩

end PySwitch.Props
