import Verif.Spec.InputSettings
import Verif.Lemmas.PropertiesNames
import Verif.Lemmas.PropertiesRange
import Verif.Lemmas.ActionNames

/-!
C167: the settings which are made in the dialog of a switch are written to the configuration, and the dialog shows what the device uses.
-/

namespace PySwitch.Props
open PySwitch.InputSettings PySwitch.InputSettings.Spec
open PySwitch.Properties (Text lit intText parseInt stripQuotes isNumber)

namespace C167

/-- The invariant of careful work. -/
structure Ok (s : State) (st fr : Bool) : Prop where
  settled : st = true → s.shownTree = s.tree
  pending : st = false → 0 < s.restarts
  shown : ∀ n, s.shown n = (s.code n).isSome
  fresh : fr = true → ∃ d, s.dialog = some d ∧ d.handle = some s.tree
  fine : s.failed = false

theorem timeCode_nat (m : Nat) : timeCode (intText m) = intText m := by
  simp only [timeCode, PySwitch.Properties.parseInt_nat]

theorem repeatCode_eq (b : Bool) : repeatCode b = if b then lit "True" else lit "False" := by cases b <;> rfl

theorem shown_put (s : State) (n : Nat) (f : Opts → Opts) (h : ∀ n, s.shown n = (s.code n).isSome) :
    ∀ k, (s.put n f).shown k = ((s.put n f).code k).isSome := by
  intro k
  simp only [State.put, h]
  split <;> simp

theorem careful_run (es : List Ev) : ∀ (s : State) (settled fresh : Bool), Ok s settled fresh →
    Careful (fun n => (s.code n).isSome = true) settled fresh es →
    (s.run es).failed = false ∧ (s.run es).code = wanted (s.dialog.map Dialog.input) s.code es := by
  induction es with
  | nil => intro s settled fresh ok _; exact ⟨ok.fine, rfl⟩
  | cons e es ih =>
    intro s settled fresh ok hc
    have known : ∀ (s' : State), (∀ n, (s'.code n).isSome = (s.code n).isSome) →
        (fun n => (s'.code n).isSome = true) = fun n => (s.code n).isSome = true := by
      intro s' h; funext n; rw [h]
    cases e with
    | openFor n =>
      obtain ⟨hs, hk, hc⟩ := hc
      have hsh : s.shown n = true := by rw [ok.shown]; exact hk
      have hst : s.step (.openFor n) =
          { s with dialog := some ⟨n, some s.tree, intText (shownTime (s.code n)), shownRepeat (s.code n)⟩, failed := false } := by
        simp only [State.step, hsh, ok.settled hs, bne_self_eq_false, Bool.and_false, Bool.false_eq_true, if_false, if_true]
      have := ih (s.step (.openFor n)) settled true (by
        rw [hst]
        exact ⟨ok.settled, ok.pending, ok.shown, fun _ => ⟨_, rfl, rfl⟩, rfl⟩) (by rw [hst]; exact hc)
      rw [hst] at this
      rw [State.run, List.foldl_cons, hst]
      exact this
    | close =>
      have := ih (s.step .close) settled false ⟨ok.settled, ok.pending, ok.shown, by simp, ok.fine⟩ hc
      exact this
    | time t =>
      obtain ⟨hf, ⟨m, rfl⟩, hc⟩ := hc
      obtain ⟨d, hd, hh⟩ := ok.fresh hf
      have hst : s.step (.time (intText m)) =
          ({ s with dialog := some { d with time := intText m } } : State).put d.input fun o => ⟨some (intText m), o.rep⟩ := by
        simp only [State.step, hd, PySwitch.Properties.isNumber_intText, if_true, State.valid, hh, beq_self_eq_true, timeCode_nat]
      have := ih (s.step (.time (intText m))) false false (by
        rw [hst]
        exact ⟨by simp, fun _ => Nat.succ_pos _, shown_put _ _ _ ok.shown, by simp, rfl⟩) (by
        rw [known]
        · exact hc
        · intro n; rw [hst]; simp only [State.put]; split <;> simp)
      rw [hst] at this
      rw [State.run, List.foldl_cons, hst, hd]
      exact this
    | rep b =>
      obtain ⟨hf, hc⟩ := hc
      obtain ⟨d, hd, hh⟩ := ok.fresh hf
      have hst : s.step (.rep b) =
          ({ s with dialog := some { d with rep := b } } : State).put d.input fun o => ⟨o.time, some (if b then lit "True" else lit "False")⟩ := by
        simp only [State.step, hd, State.valid, hh, beq_self_eq_true, if_true, repeatCode_eq]
      have := ih (s.step (.rep b)) false false (by
        rw [hst]
        exact ⟨by simp, fun _ => Nat.succ_pos _, shown_put _ _ _ ok.shown, by simp, rfl⟩) (by
        rw [known]
        · exact hc
        · intro n; rw [hst]; simp only [State.put]; split <;> simp)
      rw [hst] at this
      rw [State.run, List.foldl_cons, hst, hd]
      exact this
    | restarted =>
      cases hr : s.restarts with
      | zero =>
        have hst : s.step .restarted = s := by simp only [State.step, hr]
        have hset : settled = true := by
          cases settled
          · have := ok.pending rfl; omega
          · rfl
        have := ih s true fresh ⟨fun _ => ok.settled hset, by simp, ok.shown, ok.fresh, ok.fine⟩ hc
        rw [State.run, List.foldl_cons, hst]
        exact this
      | succ k =>
        have hst : s.step .restarted = { s with restarts := k, shownTree := s.tree, shown := fun n => (s.code n).isSome } := by
          simp only [State.step, hr]
        have := ih (s.step .restarted) true fresh (by
          rw [hst]
          exact ⟨fun _ => rfl, by simp, fun _ => rfl, ok.fresh, ok.fine⟩) (by rw [hst]; exact hc)
        rw [hst] at this
        rw [State.run, List.foldl_cons, hst]
        exact this

theorem loaded_ok (code : Nat → Option Opts) : Ok (loaded code) true false := ⟨fun _ => rfl, by simp, fun _ => rfl, by simp, rfl⟩

/-- What is known about the dialog after a careful history which ends with opening it. -/
theorem open_last (code : Nat → Option Opts) (es : List Ev) (n : Nat)
    (h : Careful (fun n => (code n).isSome = true) true false (es ++ [.openFor n])) :
    ∃ d, ((loaded code).run (es ++ [.openFor n])).dialog = some d ∧ d.input = n ∧
      d.time = intText (shownTime (((loaded code).run es).code n)) ∧ d.rep = shownRepeat (((loaded code).run es).code n) := by
  have hf := (careful_run _ _ _ _ (loaded_ok code) h).1
  rw [State.run, List.foldl_append] at hf ⊢
  have hsh : ∀ (es : List Ev) (s : State), (∀ n, (s.shown n = (s.code n).isSome)) →
      ∀ n, (s.run es).shown n = ((s.run es).code n).isSome := by
    intro es
    induction es with
    | nil => intro s h; exact h
    | cons e es ih =>
      intro s h
      apply ih
      cases e with
      | openFor k => simp only [State.step]; split <;> exact h
      | close => exact h
      | time t =>
        cases hd : s.dialog with
        | none => simp only [State.step, hd]; exact h
        | some d =>
          simp only [State.step, hd]
          generalize (if isNumber t = true then t else []) = t'
          split
          · exact shown_put _ _ _ h
          · exact h
      | rep b =>
        cases hd : s.dialog with
        | none => simp only [State.step, hd]; exact h
        | some d =>
          simp only [State.step, hd]
          split
          · exact shown_put _ _ _ h
          · exact h
      | restarted => simp only [State.step]; split <;> first | exact h | (intro; rfl)
  have hs := hsh es (loaded code) (fun _ => rfl) n
  simp only [State.run] at hs ⊢
  generalize List.foldl State.step (loaded code) es = s at hf hs ⊢
  simp only [List.foldl_cons, List.foldl_nil, State.step] at hf ⊢
  split at hf
  · simp at hf
  · rename_i hv
    rw [if_neg hv]
    refine ⟨_, rfl, rfl, ?_, ?_⟩
    · cases hn : s.shown n
      · rw [hn] at hs
        cases hcn : s.code n with
        | none => simp
        | some o => rw [hcn] at hs; cases hs
      · simp
    · cases hn : s.shown n
      · rw [hn] at hs
        cases hcn : s.code n with
        | none => simp
        | some o => rw [hcn] at hs; cases hs
      · simp

theorem strip_nat (m : Nat) : stripQuotes (intText (m : Int)) = intText m := by
  apply PySwitch.Properties.strip_id
  intro c hc
  have := PySwitch.ActionNames.intText_digits m c hc
  constructor <;> rintro rfl <;> revert this <;> decide

end C167

/-- **C167**, a careful user: all changes are written to the configuration, to the switch for which the dialog was opened and to nothing else, and
no change ends with an error. Missing: the second change while the dialog is open is lost, and the hold time may be written in a way which is not
valid, see the witnesses. -/
theorem C167_changes_partial (code : Nat → Option Opts) (es : List Ev) (h : Careful (fun n => (code n).isSome = true) true false es) :
    ((loaded code).run es).failed = false ∧ ((loaded code).run es).code = wanted none code es :=
  C167.careful_run es _ _ _ (C167.loaded_ok code) h

/-- **C167**, what is shown: after any careful work, the dialog shows the hold time (if it is not 0) and the repeat option which the device uses
for this switch. -/
theorem C167_shown_partial (code : Nat → Option Opts) (es : List Ev) (n : Nat)
    (h : Careful (fun n => (code n).isSome = true) true false (es ++ [.openFor n])) (o : Opts)
    (ho : ((loaded code).run es).code n = some o) (m : Nat) (hm : UsedTime o m) (h0 : m ≠ 0) (b : Bool) (hb : UsedRepeat o b) :
    ∃ d, ((loaded code).run (es ++ [.openFor n])).dialog = some d ∧ d.input = n ∧ d.time = intText m ∧ d.rep = b := by
  obtain ⟨d, hd, hn, ht, hr⟩ := C167.open_last code es n h
  refine ⟨d, hd, hn, ?_, ?_⟩
  · rw [ht, ho]
    simp only [shownTime, Option.bind_some, Opts.holdTime]
    cases hot : o.time with
    | none =>
      simp only [UsedTime, hot] at hm
      rw [hm]
    | some t =>
      simp only [UsedTime, hot] at hm
      subst hm
      have hne : intText (m : Int) ≠ [] := (PySwitch.Properties.intText_quotes m).1
      simp only [if_neg hne, C167.strip_nat, PySwitch.Properties.parseInt_nat]
      rw [if_neg (by omega)]
  · rw [hr, ho]
    simp only [shownRepeat, Opts.holdRepeat]
    cases hor : o.rep with
    | none =>
      simp only [UsedRepeat, hor] at hb
      subst hb; rfl
    | some t =>
      simp only [UsedRepeat, hor] at hb
      subst hb
      cases b <;> decide

/-- **C167**, other switches: whatever the user does (careful or not), a switch for which the dialog is never opened keeps its options, and no
switch comes or goes. -/
theorem C167_others (code : Nat → Option Opts) (es : List Ev) (n : Nat) :
    ((((loaded code).run es).code n).isSome = (code n).isSome) ∧ ((Ev.openFor n ∉ es) → ((loaded code).run es).code n = code n) := by
  have key : ∀ (es : List Ev) (s : State), (((s.run es).code n).isSome = (s.code n).isSome) ∧
      ((∀ d, s.dialog = some d → d.input ≠ n) → Ev.openFor n ∉ es → (s.run es).code n = s.code n) := by
    intro es
    induction es with
    | nil => intro s; exact ⟨rfl, fun _ _ => rfl⟩
    | cons e es ih =>
      intro s
      obtain ⟨h1, h2⟩ := ih (s.step e)
      have hput : ∀ (s : State) (k : Nat) (f : Opts → Opts), (((s.put k f).code n).isSome = (s.code n).isSome) ∧
          (k ≠ n → (s.put k f).code n = s.code n) := by
        intro s k f
        refine ⟨?_, fun hk => ?_⟩
        · simp only [State.put]; split <;> simp
        · simp only [State.put]; rw [if_neg (Ne.symm hk)]
      have hs : (((s.step e).code n).isSome = (s.code n).isSome) ∧ ((∀ d, s.dialog = some d → d.input ≠ n) → e ≠ .openFor n →
          (s.step e).code n = s.code n ∧ ∀ d, (s.step e).dialog = some d → d.input ≠ n) := by
        cases e with
        | openFor k =>
          simp only [State.step]
          split
          · exact ⟨rfl, fun hd _ => ⟨rfl, hd⟩⟩
          · refine ⟨rfl, fun _ hk => ⟨rfl, ?_⟩⟩
            intro d hd
            simp only [Option.some.injEq] at hd
            subst hd
            exact fun he => hk (by rw [← he])
        | close => exact ⟨rfl, fun _ _ => ⟨rfl, by intro d hd; cases hd⟩⟩
        | time t =>
          cases hd : s.dialog with
          | none => simp [State.step, hd]
          | some d =>
            simp only [State.step, hd]
            generalize (if isNumber t = true then t else []) = t'
            split
            · refine ⟨(hput _ _ _).1, fun hn _ => ⟨(hput _ _ _).2 (hn d rfl), ?_⟩⟩
              intro d' hd'
              simp only [State.put, Option.some.injEq] at hd'
              subst hd'
              exact hn d rfl
            · refine ⟨rfl, fun hn _ => ⟨rfl, ?_⟩⟩
              intro d' hd'
              simp only [Option.some.injEq] at hd'
              subst hd'
              exact hn d rfl
        | rep b =>
          cases hd : s.dialog with
          | none => simp [State.step, hd]
          | some d =>
            simp only [State.step, hd]
            split
            · refine ⟨(hput _ _ _).1, fun hn _ => ⟨(hput _ _ _).2 (hn d rfl), ?_⟩⟩
              intro d' hd'
              simp only [State.put, Option.some.injEq] at hd'
              subst hd'
              exact hn d rfl
            · refine ⟨rfl, fun hn _ => ⟨rfl, ?_⟩⟩
              intro d' hd'
              simp only [Option.some.injEq] at hd'
              subst hd'
              exact hn d rfl
        | restarted =>
          simp only [State.step]
          split
          · exact ⟨rfl, fun hn _ => ⟨rfl, hn⟩⟩
          · exact ⟨rfl, fun hn _ => ⟨rfl, hn⟩⟩
      refine ⟨by simpa only [State.run, List.foldl_cons] using h1.trans hs.1, fun hd hn => ?_⟩
      simp only [List.mem_cons, not_or] at hn
      obtain ⟨ha, hb⟩ := hs.2 hd (Ne.symm hn.1)
      have := h2 hb hn.2
      simpa only [State.run, List.foldl_cons] using this.trans ha
  exact ⟨(key es _).1, (key es _).2 (by intro d hd; cases hd)⟩

namespace C167

/-- A careful history which ends with opening the dialog: the dialog can write, and all switches are shown with the present tree. -/
theorem opened (code : Nat → Option Opts) (es : List Ev) (n : Nat)
    (h : Careful (fun n => (code n).isSome = true) true false (es ++ [.openFor n])) :
    ∃ d, ((loaded code).run (es ++ [.openFor n])).dialog = some d ∧ d.input = n ∧
      d.handle = some ((loaded code).run (es ++ [.openFor n])).tree ∧
      ((loaded code).run (es ++ [.openFor n])).shownTree = ((loaded code).run (es ++ [.openFor n])).tree ∧
      ∀ k, (code k).isSome = true → ((loaded code).run (es ++ [.openFor n])).shown k = true := by
  have key : ∀ (es : List Ev) (s : State) (st fr : Bool), Ok s st fr → Careful (fun n => (s.code n).isSome = true) st fr (es ++ [.openFor n]) →
      (∀ n, (s.code n).isSome = (code n).isSome) →
      ∃ d, (s.run (es ++ [.openFor n])).dialog = some d ∧ d.input = n ∧ d.handle = some (s.run (es ++ [.openFor n])).tree ∧
        (s.run (es ++ [.openFor n])).shownTree = (s.run (es ++ [.openFor n])).tree ∧
        ∀ k, (code k).isSome = true → (s.run (es ++ [.openFor n])).shown k = true := by
    intro es
    induction es with
    | nil =>
      intro s st fr ok hc hk
      obtain ⟨hs, hkn, -⟩ := hc
      have hsh : s.shown n = true := by rw [ok.shown]; exact hkn
      have hst : s.run [.openFor n] =
          { s with dialog := some ⟨n, some s.tree, intText (shownTime (s.code n)), shownRepeat (s.code n)⟩, failed := false } := by
        simp only [State.run, List.foldl_cons, List.foldl_nil, State.step, hsh, ok.settled hs, bne_self_eq_false, Bool.and_false,
          Bool.false_eq_true, if_false, if_true]
      rw [List.nil_append, hst]
      refine ⟨_, rfl, rfl, rfl, ok.settled hs, fun k hkk => ?_⟩
      rw [ok.shown, hk, hkk]
    | cons e es ih =>
      intro s st fr ok hc hk
      have known : ∀ (s' : State), (∀ n, (s'.code n).isSome = (s.code n).isSome) →
          (fun n => (s'.code n).isSome = true) = fun n => (s.code n).isSome = true := by
        intro s' h; funext n; rw [h]
      cases e with
      | openFor m =>
        obtain ⟨hs, hkn, hc⟩ := hc
        have hsh : s.shown m = true := by rw [ok.shown]; exact hkn
        have hst : s.step (.openFor m) =
            { s with dialog := some ⟨m, some s.tree, intText (shownTime (s.code m)), shownRepeat (s.code m)⟩, failed := false } := by
          simp only [State.step, hsh, ok.settled hs, bne_self_eq_false, Bool.and_false, Bool.false_eq_true, if_false, if_true]
        exact ih (s.step (.openFor m)) st true (by
          rw [hst]; exact ⟨ok.settled, ok.pending, ok.shown, fun _ => ⟨_, rfl, rfl⟩, rfl⟩) (by rw [hst]; exact hc) (by rw [hst]; exact hk)
      | close => exact ih (s.step .close) st false ⟨ok.settled, ok.pending, ok.shown, by simp, ok.fine⟩ hc hk
      | time t =>
        obtain ⟨hf, ⟨m, rfl⟩, hc⟩ := hc
        obtain ⟨d, hd, hh⟩ := ok.fresh hf
        have hst : s.step (.time (intText m)) =
            ({ s with dialog := some { d with time := intText m } } : State).put d.input fun o => ⟨some (intText m), o.rep⟩ := by
          simp only [State.step, hd, PySwitch.Properties.isNumber_intText, if_true, State.valid, hh, beq_self_eq_true, timeCode_nat]
        have hcode : ∀ n, ((s.step (.time (intText m))).code n).isSome = (s.code n).isSome := by
          intro n; rw [hst]; simp only [State.put]; split <;> simp
        exact ih (s.step (.time (intText m))) false false (by
          rw [hst]
          exact ⟨by simp, fun _ => Nat.succ_pos _, shown_put _ _ _ ok.shown, by simp, rfl⟩) (by
          rw [known _ hcode]; exact hc) (fun n => (hcode n).trans (hk n))
      | rep b =>
        obtain ⟨hf, hc⟩ := hc
        obtain ⟨d, hd, hh⟩ := ok.fresh hf
        have hst : s.step (.rep b) =
            ({ s with dialog := some { d with rep := b } } : State).put d.input fun o => ⟨o.time, some (if b then lit "True" else lit "False")⟩ := by
          simp only [State.step, hd, State.valid, hh, beq_self_eq_true, if_true, repeatCode_eq]
        have hcode : ∀ n, ((s.step (.rep b)).code n).isSome = (s.code n).isSome := by
          intro n; rw [hst]; simp only [State.put]; split <;> simp
        exact ih (s.step (.rep b)) false false (by
          rw [hst]
          exact ⟨by simp, fun _ => Nat.succ_pos _, shown_put _ _ _ ok.shown, by simp, rfl⟩) (by
          rw [known _ hcode]; exact hc) (fun n => (hcode n).trans (hk n))
      | restarted =>
        cases hr : s.restarts with
        | zero =>
          have hst : s.step .restarted = s := by simp only [State.step, hr]
          have hset : st = true := by
            cases st
            · have := ok.pending rfl; omega
            · rfl
          have := ih s true fr ⟨fun _ => ok.settled hset, by simp, ok.shown, ok.fresh, ok.fine⟩ hc hk
          rw [List.cons_append, State.run, List.foldl_cons, hst]
          exact this
        | succ k =>
          have hst : s.step .restarted = { s with restarts := k, shownTree := s.tree, shown := fun n => (s.code n).isSome } := by
            simp only [State.step, hr]
          exact ih (s.step .restarted) true fr (by
            rw [hst]
            exact ⟨fun _ => rfl, by simp, fun _ => rfl, ok.fresh, ok.fine⟩) (by rw [hst]; exact hc) (by rw [hst]; exact hk)
  exact key es _ _ _ (loaded_ok code) h (fun _ => rfl)

end C167

/-- **C167**, before the restart: after a change, the dialog cannot be opened for any switch of the configuration until the emulator has been
restarted. Trying it shows an error message, nothing is written, and the dialog still belongs to the first switch. -/
theorem C167_before_restart (code : Nat → Option Opts) (es : List Ev) (n k : Nat) (b : Bool)
    (h : Careful (fun n => (code n).isSome = true) true false (es ++ [.openFor n])) (hk : (code k).isSome = true) :
    ((loaded code).run (es ++ [.openFor n] ++ [.rep b, .openFor k])).failed = true ∧
    ((loaded code).run (es ++ [.openFor n] ++ [.rep b, .openFor k])).code = ((loaded code).run (es ++ [.openFor n] ++ [.rep b])).code ∧
    ((loaded code).run (es ++ [.openFor n] ++ [.rep b, .openFor k])).dialog.map Dialog.input = some n := by
  obtain ⟨d, hd, hn, hh, ht, hsh⟩ := C167.opened code es n h
  simp only [State.run, List.foldl_append] at hd hh ht hsh ⊢
  generalize List.foldl State.step (List.foldl State.step (loaded code) es) [.openFor n] = s at hd hh ht hsh ⊢
  have hst : s.step (.rep b) = ({ s with dialog := some { d with rep := b } } : State).put d.input fun o => ⟨o.time, some (repeatCode b)⟩ := by
    simp only [State.step, hd, State.valid, hh, beq_self_eq_true, if_true]
  have hs2 : (s.step (.rep b)).step (.openFor k) = { s.step (.rep b) with failed := true } := by
    have h1 : (s.step (.rep b)).shown k = true := by rw [hst]; exact hsh k hk
    have h2 : ((s.step (.rep b)).shownTree != (s.step (.rep b)).tree) = true := by
      rw [hst]; simp only [State.put, ht, bne_iff_ne]; omega
    generalize s.step (.rep b) = t at h1 h2 ⊢
    simp only [State.step, h1, h2, Bool.and_self, if_true]
  simp only [List.foldl_cons, List.foldl_nil, hs2]
  refine ⟨trivial, trivial, ?_⟩
  simp only [hst, State.put, Option.map_some, hn]

/-- **C167**, texts which are not a number: the input of the hold time does not hold them, it is empty then, and `NaN` is written for the switch
(which the configuration does not know), whatever has been entered. -/
theorem C167_no_number (code : Nat → Option Opts) (es : List Ev) (n : Nat) (t : Text) (hnum : isNumber t = false)
    (h : Careful (fun n => (code n).isSome = true) true false (es ++ [.openFor n])) (o : Opts)
    (ho : ((loaded code).run (es ++ [.openFor n])).code n = some o) :
    ((loaded code).run (es ++ [.openFor n] ++ [.time t])).code n = some ⟨some (lit "NaN"), o.rep⟩ ∧
    ((loaded code).run (es ++ [.openFor n] ++ [.time t])).dialog.map Dialog.time = some [] := by
  obtain ⟨d, hd, hn, hh, ht, hsh⟩ := C167.opened code es n h
  simp only [State.run, List.foldl_append] at hd hh ht hsh ho ⊢
  generalize List.foldl State.step (List.foldl State.step (loaded code) es) [.openFor n] = s at hd hh ht hsh ho ⊢
  have hst : s.step (.time t) = ({ s with dialog := some { d with time := [] } } : State).put d.input fun o => ⟨some (timeCode []), o.rep⟩ := by
    simp only [State.step, hd, State.valid, hh, beq_self_eq_true, if_true, hnum, Bool.false_eq_true, if_false]
  simp only [List.foldl_cons, List.foldl_nil, hst, State.put, hn, if_true, ho, Option.map_some]
  have hnan : timeCode [] = lit "NaN" := by decide +kernel
  rw [hnan]
  exact ⟨rfl, trivial⟩

/-- Their hypotheses are met: a careful history, another switch, and a text which is not a number. -/
example : Careful (fun n => ((fun n => if n < 2 then some ({} : Opts) else none) n).isSome = true) true false ([.openFor 0, .rep true, .restarted] ++ [.openFor 1]) ∧
    isNumber (lit "12ms") = false := ⟨⟨rfl, rfl, rfl, rfl, rfl, trivial⟩, by decide +kernel⟩

/-- Two switches, without options. -/
def c167Code : Nat → Option Opts := fun n => if n < 2 then some {} else none

/-- Two changes for the same switch, with a restart and opening the dialog again: careful, and both are written. -/
def c167Run : List Ev := [.openFor 1, .rep true, .close, .restarted, .openFor 1, .time (lit "250"), .close, .restarted]

example : Careful (fun n => (c167Code n).isSome = true) true false c167Run :=
  ⟨rfl, rfl, rfl, rfl, rfl, rfl, ⟨250, rfl⟩, trivial⟩

example : ((loaded c167Code).run c167Run).code 1 = some ⟨some (lit "250"), some (lit "True")⟩ := by decide +kernel

/-- The hypotheses of `C167_shown_partial`. -/
example : Careful (fun n => (c167Code n).isSome = true) true false (c167Run ++ [.openFor 1]) ∧
    UsedTime ⟨some (lit "250"), some (lit "True")⟩ (250 : Nat) ∧ UsedRepeat ⟨some (lit "250"), some (lit "True")⟩ true :=
  ⟨⟨rfl, rfl, rfl, rfl, rfl, rfl, ⟨250, rfl⟩, rfl, rfl, trivial⟩, rfl, rfl⟩

/-- **C167** does not hold for a second change while the dialog is open, not even after the restart: it ends with an error and is not written,
although the dialog shows it. -/
theorem C167_second_change_witness :
    let s := (loaded c167Code).run [.openFor 1, .rep true, .restarted, .time (lit "250")]
    s.failed = true ∧ s.code 1 = some ⟨none, some (lit "True")⟩ ∧ s.dialog.map Dialog.time = some (lit "250") := by
  refine ⟨?_, ?_, ?_⟩ <;> decide +kernel

/-- **C167** does not hold for a hold time of 0: the dialog shows 600. -/
theorem C167_zero_witness :
    let s := (loaded c167Code).run [.openFor 1, .time (lit "0"), .close, .restarted, .openFor 1]
    (∀ o, s.code 1 = some o → UsedTime o 0) ∧ s.dialog.map Dialog.time = some (lit "600") := by
  refine ⟨?_, ?_⟩
  · have h : ((loaded c167Code).run [.openFor 1, .time (lit "0"), .close, .restarted, .openFor 1]).code 1 = some ⟨some (lit "0"), none⟩ := by
      decide +kernel
    intro o ho
    rw [h] at ho
    simp only [Option.some.injEq] at ho
    subst ho
    rfl
  · decide +kernel

/-- **C167** does not hold if the hold time is cleared: `NaN` is written, which is a name that the configuration does not know. -/
theorem C167_empty_witness : ((loaded c167Code).run [.openFor 1, .time []]).code 1 = some ⟨some (lit "NaN"), none⟩ := by decide +kernel

/-- **C167** does not hold for negative times either: they are accepted although the least value is 0. -/
theorem C167_negative_witness :
    ((loaded c167Code).run [.openFor 1, .time (lit "-5")]).code 1 = some ⟨some (lit "-5"), none⟩ := by decide +kernel

/-- **C167** does not hold for a switch which is not in the configuration: the dialog opens with the defaults, and the change is lost. -/
theorem C167_missing_witness :
    let s := (loaded c167Code).run [.openFor 2, .rep true]
    s.failed = true ∧ s.code 2 = none ∧ s.dialog.map Dialog.rep = some true := by
  refine ⟨?_, ?_, ?_⟩ <;> decide +kernel

end PySwitch.Props
