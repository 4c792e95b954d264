import Verif.Spec.Runner

/-!
Starting and stopping the emulated controller.
-/

namespace PySwitch.Runner
open Spec

theorem engine_update (s : State) (k j : Nat) (f : Engine → Engine) :
    (s.update k f).engine j = if j = k ∧ k < s.engines.length then f (s.engine k) else s.engine j := by
  simp only [State.engine, State.update, List.getElem?_modify]
  by_cases hj : j = k
  · subst hj
    by_cases hk : j < s.engines.length
    · rw [if_pos ⟨rfl, hk⟩, List.getElem?_eq_getElem hk]
      simp
    · rw [if_neg (fun h => hk h.2), List.getElem?_eq_none (by omega)]
      simp
  · rw [if_neg (fun h => hj h.1)]
    cases s.engines[j]? with
    | none => simp
    | some e => simp [Ne.symm hj]

theorem engine_update_self (s : State) {k : Nat} (h : k < s.engines.length) (f : Engine → Engine) : (s.update k f).engine k = f (s.engine k) := by
  rw [engine_update, if_pos ⟨rfl, h⟩]

theorem engine_update_other (s : State) {k j : Nat} (h : j ≠ k) (f : Engine → Engine) : (s.update k f).engine j = s.engine j := by
  rw [engine_update, if_neg fun x => h x.1]

theorem length_update (s : State) (k : Nat) (f : Engine → Engine) : (s.update k f).engines.length = s.engines.length := by
  simp [State.update]

/-- What is known of the last call. -/
def PhaseOk (s : State) (t : Task) : Prop :=
  match t.phase, t.call with
  | .stopping, _ => ∃ k, s.current = some k ∧ (s.engine k).triggerStop = true
  | .reading, _ => s.current = none
  | .written, .run cfg _ => s.current = none ∧ s.fs = cfg
  | .created, .run cfg _ => s.fs = cfg ∧ ∃ k, s.current = some k ∧ s.engine k = {}
  | .done, .stop => s.current = none
  | .done, .run cfg dontTick => ∃ k, s.current = some k ∧ (s.engine k).config = some cfg ∧ (dontTick = true → (s.engine k).running = false) ∧
      (dontTick = false → ((s.engine k).pending = 1 ∧ (s.engine k).running = true ∧ (s.engine k).triggerStop = false) ∨ (k, false) ∈ s.log)
  | _, _ => True

/-- The state when all calls are made one after the other. -/
structure Inv (s : State) : Prop where
  small : ∀ k, (s.engine k).pending ≤ 1 ∧ ((s.engine k).running = false → (s.engine k).pending = 0)
  others : ∀ k, s.current ≠ some k → (s.engine k).pending = 0
  bound : ∀ k, s.current = some k → k < s.engines.length
  tasks : ∀ i t, s.tasks[i]? = some t → Task.Finished t ∨ i + 1 = s.tasks.length
  last : ∀ t, s.tasks.getLast? = some t → PhaseOk s t
  nothing : s.tasks = [] → s.current = none

/-- Each engine which runs has a timeout. -/
def Alive (s : State) : Prop := ∀ k, (s.engine k).running = true → (s.engine k).pending = 1

theorem inv_init : Inv {} := by
  refine ⟨fun k => ?_, fun k _ => ?_, fun k h => ?_, fun i t h => ?_, fun t h => ?_, fun _ => rfl⟩ <;> simp_all [State.engine]

theorem tasks_append {ts : List Task} {t : Task} (h : ∀ x ∈ ts, Task.Finished x) :
    ∀ i x, (ts ++ [t])[i]? = some x → Task.Finished x ∨ i + 1 = (ts ++ [t]).length := by
  intro i x hx
  by_cases hi : i < ts.length
  · rw [List.getElem?_append_left hi] at hx
    exact .inl (h x (List.mem_of_getElem? hx))
  · right
    have := (List.getElem?_eq_some_iff.1 hx).1
    rw [List.length_append] at this ⊢
    simp at this ⊢
    omega

theorem phaseOk_afterStop (s : State) (c : Call) (h : s.current = none) : PhaseOk s ⟨c, afterStop c⟩ := by
  cases c <;> exact h

theorem inv_call {s : State} (h : Inv s) (hf : ∀ t ∈ s.tasks, Task.Finished t) (c : Call) : Inv (s.call c) := by
  unfold State.call
  cases hc : s.current with
  | none =>
    refine ⟨h.small, fun k _ => h.others k (by rw [hc]; simp), fun k hk => ?_, tasks_append hf, fun t ht => ?_, fun e => ?_⟩
    · exact absurd hk (by simp)
    · simp only [List.getLast?_concat, Option.some.injEq] at ht
      subst ht
      exact phaseOk_afterStop _ _ rfl
    · rfl
  | some k =>
    have hk := h.bound k hc
    have hself : ∀ f, (s.update k f).engine k = f (s.engine k) := engine_update_self s hk
    have hsmall : ∀ j, ((s.update k fun e => { e with triggerStop := true }).engine j).pending = (s.engine j).pending ∧
        ((s.update k fun e => { e with triggerStop := true }).engine j).running = (s.engine j).running := by
      intro j
      by_cases hj : j = k
      · subst hj
        rw [hself]
        exact ⟨rfl, rfl⟩
      · rw [engine_update_other s hj]
        exact ⟨rfl, rfl⟩
    simp only
    by_cases hw : (s.update k fun e => { e with triggerStop := true }).waits = true
    · rw [if_pos hw]
      refine ⟨fun j => ?_, fun j hj => ?_, fun j hj => ?_, tasks_append hf, fun t ht => ?_, fun e => ?_⟩
      · show ((s.update k _).engine j).pending ≤ 1 ∧ (((s.update k _).engine j).running = false → ((s.update k _).engine j).pending = 0)
        rw [(hsmall j).1, (hsmall j).2]
        exact h.small j
      · show ((s.update k _).engine j).pending = 0
        rw [(hsmall j).1]
        exact h.others j hj
      · rw [length_update]
        exact h.bound j hj
      · simp only [List.getLast?_concat, Option.some.injEq] at ht
        subst ht
        refine ⟨k, hc, ?_⟩
        show ((s.update k _).engine k).triggerStop = true
        rw [hself]
      · exact absurd e (by simp)
    · rw [if_neg hw]
      refine ⟨fun j => ?_, fun j hj => ?_, fun j hj => ?_, tasks_append hf, fun t ht => ?_, fun e => ?_⟩
      · show ((s.update k _).engine j).pending ≤ 1 ∧ (((s.update k _).engine j).running = false → ((s.update k _).engine j).pending = 0)
        rw [(hsmall j).1, (hsmall j).2]
        exact h.small j
      · show ((s.update k _).engine j).pending = 0
        rw [(hsmall j).1]
        by_cases hj' : j = k
        · subst hj'
          apply (h.small j).2
          rw [← (hsmall j).2]
          have e : (s.update j fun e => { e with triggerStop := true }).current = some j := hc
          unfold State.waits at hw
          rw [e] at hw
          exact Bool.eq_false_iff.2 hw
        · exact h.others j (by rw [hc]; simpa using Ne.symm hj')
      · exact absurd hj (by simp)
      · simp only [List.getLast?_concat, Option.some.injEq] at ht
        subst ht
        exact phaseOk_afterStop _ _ rfl
      · rfl

/-- The tick of the current engine, when it has no timeout. -/
theorem tick_engine {s : State} {k : Nat} (hk : k < s.engines.length) (ok : Bool) : ∀ j, (s.tick k ok).engine j =
    if j = k then (if (s.engine k).triggerStop then { s.engine k with running := false }
      else { s.engine k with pending := (s.engine k).pending + 1, triggerStop := !ok }) else s.engine j := by
  intro j
  unfold State.tick
  by_cases ht : (s.engine k).triggerStop = true
  · simp only [ht, Bool.not_true, Bool.false_eq_true, if_false, if_true]
    by_cases hj : j = k
    · subst hj
      rw [engine_update_self s hk, if_pos rfl, ht]
    · rw [engine_update_other s hj, if_neg hj]
  · simp only [Bool.not_eq_true] at ht
    simp only [ht, Bool.not_false, if_true, Bool.false_eq_true, if_false]
    show (s.update k _).engine j = _
    by_cases hj : j = k
    · subst hj
      rw [engine_update_self s hk, if_pos rfl]
    · rw [engine_update_other s hj, if_neg hj]

theorem tick_frame (s : State) (k : Nat) (ok : Bool) : (s.tick k ok).current = s.current ∧ (s.tick k ok).tasks = s.tasks ∧
    (s.tick k ok).engines.length = s.engines.length ∧ (s.tick k ok).fs = s.fs ∧
    (s.tick k ok).log = if (s.engine k).triggerStop then s.log else s.log ++ [(k, ok)] := by
  unfold State.tick
  by_cases ht : (s.engine k).triggerStop = true
  · simp only [ht, Bool.not_true, Bool.false_eq_true, if_false, if_true]
    exact ⟨rfl, rfl, length_update s k _, rfl, rfl⟩
  · simp only [Bool.not_eq_true] at ht
    simp only [ht, Bool.not_false, if_true, Bool.false_eq_true, if_false]
    exact ⟨rfl, rfl, length_update s k _, rfl, trivial⟩

/-- A timeout which fires belongs to the current engine. -/
theorem fire_current {s : State} (h : Inv s) {k : Nat} (hp : (s.engine k).pending ≠ 0) : s.current = some k :=
  Decidable.byContradiction fun hn => hp (h.others k hn)

theorem fire_engine {s : State} (h : Inv s) {k : Nat} (hp : (s.engine k).pending ≠ 0) (ok : Bool) (j : Nat) : (s.step (.fire k ok)).engine j =
    if j = k then (if (s.engine k).triggerStop then { s.engine k with running := false, pending := 0 }
      else { s.engine k with triggerStop := !ok }) else s.engine j := by
  have hk := h.bound k (fire_current h hp)
  have h1 : (s.engine k).pending = 1 := by have := (h.small k).1; omega
  simp only [State.step, if_neg hp]
  rw [tick_engine (by rw [length_update]; exact hk), engine_update_self s hk]
  by_cases hj : j = k
  · subst hj
    rw [if_pos rfl, if_pos rfl, h1]
  · rw [if_neg hj, if_neg hj, engine_update_other s hj]

theorem fire_frame (s : State) {k : Nat} (hk : k < s.engines.length) (hp : (s.engine k).pending ≠ 0) (ok : Bool) :
    (s.step (.fire k ok)).current = s.current ∧ (s.step (.fire k ok)).tasks = s.tasks ∧
    (s.step (.fire k ok)).engines.length = s.engines.length ∧ (s.step (.fire k ok)).fs = s.fs ∧
    (s.step (.fire k ok)).log = if (s.engine k).triggerStop then s.log else s.log ++ [(k, ok)] := by
  simp only [State.step, if_neg hp]
  obtain ⟨a, b, c, d, e⟩ := tick_frame (s.update k fun e => { e with pending := e.pending - 1 }) k ok
  rw [engine_update_self s hk] at e
  exact ⟨a, b, c.trans (length_update s k _), d, e⟩

theorem inv_fire {s : State} (h : Inv s) (k : Nat) (ok : Bool) : Inv (s.step (.fire k ok)) := by
  by_cases hp : (s.engine k).pending = 0
  · simp only [State.step, if_pos hp]
    exact h
  have hc := fire_current h hp
  have hk := h.bound k hc
  have h1 : (s.engine k).pending = 1 := by have := (h.small k).1; omega
  have hrun : (s.engine k).running = true := by
    cases hr : (s.engine k).running with
    | true => rfl
    | false => exact absurd ((h.small k).2 hr) hp
  have he := fire_engine h hp ok
  obtain ⟨f1, f2, f3, f4, f5⟩ := fire_frame s hk hp ok
  generalize s.step (.fire k ok) = s' at he f1 f2 f3 f4 f5
  have hek := he k
  rw [if_pos rfl] at hek
  refine ⟨fun j => ?_, fun j hj => ?_, fun j hj => ?_, ?_, fun t ht => ?_, fun e => ?_⟩
  · rw [he j]
    by_cases hj : j = k
    · rw [if_pos hj]
      by_cases ht : (s.engine k).triggerStop = true
      · rw [if_pos ht]
        exact ⟨by simp, fun _ => rfl⟩
      · rw [if_neg ht]
        exact h.small k
    · rw [if_neg hj]
      exact h.small j
  · rw [f1, hc] at hj
    rw [he j, if_neg (fun x => hj (by rw [x]))]
    exact h.others j (by rw [hc]; exact hj)
  · rw [f3]
    exact h.bound j (by rw [← f1]; exact hj)
  · rw [f2]
    exact h.tasks
  · rw [f2] at ht
    have := h.last t ht
    obtain ⟨c, p⟩ := t
    cases p with
    | stopping =>
      obtain ⟨k', hk', ht'⟩ := this
      have : k' = k := by rw [hc] at hk'; exact (Option.some.inj hk').symm
      subst this
      refine ⟨k', by rw [f1]; exact hc, ?_⟩
      rw [hek, if_pos ht']
      exact ht'
    | reading => exact absurd (hc.symm.trans this) (by simp)
    | written =>
      cases c with
      | stop => trivial
      | run cfg d => exact absurd (hc.symm.trans this.1) (by simp)
    | created =>
      cases c with
      | stop => trivial
      | run cfg d =>
        obtain ⟨-, k', hk', he'⟩ := this
        have : k' = k := by rw [hc] at hk'; exact (Option.some.inj hk').symm
        subst this
        rw [he'] at hp
        exact absurd rfl hp
    | done =>
      cases c with
      | stop => exact absurd (hc.symm.trans this) (by simp)
      | run cfg d =>
        obtain ⟨k', hk', hcfg, hd, hd'⟩ := this
        have : k' = k := by rw [hc] at hk'; exact (Option.some.inj hk').symm
        subst this
        refine ⟨k', by rw [f1]; exact hc, ?_, fun e => ?_, fun e => ?_⟩
        · rw [hek]
          split <;> exact hcfg
        · rw [hrun] at hd
          exact absurd (hd e) (by simp)
        · rcases hd' e with hx | hx
          · rw [hek, f5, hx.2.2]
            cases ok with
            | true => exact .inl ⟨h1, hrun, rfl⟩
            | false => exact .inr (by simp)
          · right
            rw [f5]
            split
            · exact hx
            · exact List.mem_append_left _ hx
    | failed => cases c <;> trivial
  · rw [f1]
    exact h.nothing (by rw [← f2]; exact e)

theorem resume_finished (s : State) (t : Task) (out : Outcome) (h : Task.Finished t) : s.resume t out = (s, t.phase) := by
  obtain ⟨c, p⟩ := t
  rcases h with h | h <;> simp only at h <;> subst h <;> cases c <;> rfl

/-- The last call goes on to another phase. -/
theorem inv_set {s s' : State} (h : Inv s) {i : Nat} {t : Task} (hi : s.tasks[i]? = some t) (hn : ¬ Task.Finished t) (p : Phase)
    (ht : s'.tasks = s.tasks)
    (h1 : ∀ k, (s'.engine k).pending ≤ 1 ∧ ((s'.engine k).running = false → (s'.engine k).pending = 0))
    (h2 : ∀ k, s'.current ≠ some k → (s'.engine k).pending = 0) (h3 : ∀ k, s'.current = some k → k < s'.engines.length)
    (h4 : PhaseOk s' { t with phase := p }) : Inv { s' with tasks := s'.tasks.set i { t with phase := p } } := by
  have hl : i + 1 = s.tasks.length := (h.tasks i t hi).resolve_left hn
  refine ⟨h1, h2, h3, fun j x hx => ?_, fun x hx => ?_, fun e => ?_⟩
  · simp only [ht, List.length_set] at hx ⊢
    by_cases hj : i = j
    · subst hj
      exact .inr hl
    · rw [List.getElem?_set_ne hj] at hx
      exact h.tasks j x hx
  · simp only [ht] at hx
    rw [List.getLast?_eq_getElem?, List.length_set, List.getElem?_set] at hx
    rw [if_pos (by omega), if_pos (by omega)] at hx
    rw [← Option.some.inj hx]
    exact h4
  · simp only [ht] at e
    have := congrArg List.length e
    rw [List.length_set] at this
    simp at this
    rw [this] at hl
    simp at hl

theorem inv_resume {s : State} (h : Inv s) {i : Nat} {t : Task} (hi : s.tasks[i]? = some t) (out : Outcome) : Inv (s.step (.resume i out)) := by
  simp only [State.step, hi]
  by_cases hn : Task.Finished t
  · rw [resume_finished s t out hn]
    have : s.tasks.set i { t with phase := t.phase } = s.tasks := by
      obtain ⟨hl, he⟩ := List.getElem?_eq_some_iff.1 hi
      subst he
      exact List.set_getElem_self hl
    simp only [this]
    exact h
  have hl : i + 1 = s.tasks.length := (h.tasks i t hi).resolve_left hn
  have hok := h.last t (by rw [List.getLast?_eq_getElem?, ← hl, Nat.add_sub_cancel]; exact hi)
  obtain ⟨c, p⟩ := t
  cases p with
  | done => exact absurd (.inl rfl) hn
  | failed => exact absurd (.inr rfl) hn
  | stopping =>
    obtain ⟨k, hk, ht⟩ := hok
    simp only [State.resume]
    by_cases hw : s.waits = true
    · rw [if_pos hw]
      exact inv_set h hi hn _ rfl h.small h.others h.bound ⟨k, hk, ht⟩
    · rw [if_neg hw]
      refine inv_set (s' := { s with current := none }) h hi hn _ rfl h.small (fun j _ => ?_) (fun j hj => absurd hj (by simp)) (phaseOk_afterStop _ _ rfl)
      show (s.engine j).pending = 0
      by_cases hj : s.current = some j
      · apply (h.small j).2
        unfold State.waits at hw
        rw [hj] at hw
        exact Bool.eq_false_iff.2 hw
      · exact h.others j hj
  | reading =>
    cases c with
    | stop => exact inv_set h hi hn _ rfl h.small h.others h.bound hok
    | run cfg d =>
      simp only [State.resume]
      by_cases ho : out = .awaitFails
      · rw [if_pos ho]
        exact inv_set h hi hn _ rfl h.small h.others h.bound trivial
      · rw [if_neg ho]
        exact inv_set (s' := { s with fs := cfg }) h hi hn _ rfl h.small h.others h.bound ⟨hok, rfl⟩
  | written =>
    cases c with
    | stop => exact inv_set h hi hn _ rfl h.small h.others h.bound trivial
    | run cfg d =>
      simp only [State.resume]
      by_cases ho : out = .awaitFails
      · rw [if_pos ho]
        exact inv_set h hi hn _ rfl h.small h.others h.bound trivial
      · rw [if_neg ho]
        have he : ∀ j, State.engine { s with engines := s.engines ++ [{}], current := some s.engines.length } j = s.engine j := by
          intro j
          simp only [State.engine]
          by_cases hj : j < s.engines.length
          · rw [List.getElem?_append_left hj]
          · rw [List.getElem?_eq_none (l := s.engines) (by omega)]
            by_cases hj' : j = s.engines.length
            · subst hj'
              rw [List.getElem?_concat_length]
              rfl
            · rw [List.getElem?_eq_none (by simp; omega)]
        refine inv_set (s' := { s with engines := s.engines ++ [{}], current := some s.engines.length }) h hi hn _ rfl (fun j => ?_) (fun j hj => ?_)
          (fun j hj => ?_) ⟨hok.2, s.engines.length, rfl, ?_⟩
        · rw [he]; exact h.small j
        · rw [he]; exact h.others j (by rw [hok.1]; simp)
        · simp only [Option.some.injEq] at hj
          rw [← hj]
          simp
        · rw [he, State.engine, List.getElem?_eq_none (by omega)]
          rfl
  | created =>
    cases c with
    | stop => exact inv_set h hi hn _ rfl h.small h.others h.bound trivial
    | run cfg d =>
      simp only [State.resume]
      by_cases ho : out = .awaitFails
      · rw [if_pos ho]
        exact inv_set h hi hn _ rfl h.small h.others h.bound trivial
      rw [if_neg ho]
      obtain ⟨hfs, k, hk, he⟩ := hok
      have hlt := h.bound k hk
      have hold : ∀ j, j ≠ k → (s.engine j).pending = 0 := fun j hj => h.others j (by rw [hk]; simpa using Ne.symm hj)
      simp only [State.start, hk]
      -- a state with only engine `k` changed
      have key : ∀ (s' : State) (e : Engine) (p : Phase), s'.current = some k → s'.tasks = s.tasks → s'.engines.length = s.engines.length →
          (∀ j, s'.engine j = if j = k then e else s.engine j) → e.pending ≤ 1 → (e.running = false → e.pending = 0) →
          PhaseOk s' ⟨.run cfg d, p⟩ → Inv { s' with tasks := s'.tasks.set i ⟨.run cfg d, p⟩ } := by
        intro s' e p g1 g2 g3 g4 g5 g6 g7
        refine inv_set h hi hn p g2 (fun j => ?_) (fun j hj => ?_) (fun j hj => ?_) g7
        · rw [g4]
          by_cases hj : j = k
          · rw [if_pos hj]
            exact ⟨g5, g6⟩
          · rw [if_neg hj]
            exact h.small j
        · rw [g1] at hj
          have : j ≠ k := fun x => hj (by rw [x])
          rw [g4, if_neg this]
          exact hold j this
        · rw [g1] at hj
          rw [g3, ← Option.some.inj hj]
          exact hlt
      cases d with
      | true =>
        simp only [if_true]
        by_cases hi' : out = .initFails
        · rw [if_pos hi']
          exact key s {} .failed hk rfl rfl (fun j => by by_cases hj : j = k <;> simp [hj, he]) (by simp) (fun _ => rfl) trivial
        · rw [if_neg hi']
          have hself := engine_update_self s hlt fun e => { e with config := some s.fs }
          have hr : ((s.update k fun e => { e with config := some s.fs }).engine k).running = false := by rw [hself, he]
          rw [hr]
          simp only [Bool.false_eq_true, if_false]
          refine key (s.update k fun e => { e with config := some s.fs }) { config := some s.fs } .done hk rfl (length_update _ _ _) (fun j => ?_) (by simp)
            (fun _ => rfl) ⟨k, hk, ?_, fun _ => hr, fun x => by simp at x⟩
          · by_cases hj : j = k
            · rw [if_pos hj, hj, hself, he]
            · rw [if_neg hj, engine_update_other s hj]
          · rw [hself, hfs]
      | false =>
        simp only [Bool.false_eq_true, if_false]
        have hl1 : (s.update k fun e => { e with running := true, triggerStop := false }).engines.length = s.engines.length := length_update _ _ _
        have hself := engine_update_self s hlt fun e => { e with running := true, triggerStop := false }
        have hother := fun j (hj : j ≠ k) => engine_update_other s hj fun e => { e with running := true, triggerStop := false }
        have hcur : (s.update k fun e => { e with running := true, triggerStop := false }).current = some k := hk
        have htask : (s.update k fun e => { e with running := true, triggerStop := false }).tasks = s.tasks := rfl
        have hfs' : (s.update k fun e => { e with running := true, triggerStop := false }).fs = cfg := hfs
        generalize (s.update k fun e => { e with running := true, triggerStop := false }) = s1 at hl1 hself hother hcur htask hfs'
        rw [he] at hself
        by_cases hi' : out = .initFails
        · rw [if_pos hi']
          refine key s1 { running := true } .failed hcur htask hl1 (fun j => ?_) (by simp) (fun x => by simp at x) trivial
          by_cases hj : j = k
          · rw [if_pos hj, hj, hself]
          · rw [if_neg hj, hother j hj]
        · rw [if_neg hi']
          have hlt1 : k < s1.engines.length := by rw [hl1]; exact hlt
          have hself2 := engine_update_self s1 hlt1 fun e => { e with config := some s1.fs }
          have hother2 := fun j (hj : j ≠ k) => engine_update_other s1 hj fun e => { e with config := some s1.fs }
          have hl2 : (s1.update k fun e => { e with config := some s1.fs }).engines.length = s1.engines.length := length_update _ _ _
          have hcur2 : (s1.update k fun e => { e with config := some s1.fs }).current = some k := hcur
          have htask2 : (s1.update k fun e => { e with config := some s1.fs }).tasks = s.tasks := htask
          generalize (s1.update k fun e => { e with config := some s1.fs }) = s2 at hl2 hself2 hother2 hcur2 htask2
          rw [hself, hfs'] at hself2
          have hr : (s2.engine k).running = true := by rw [hself2]
          rw [if_pos hr]
          obtain ⟨f1, f2, f3, f4, f5⟩ := tick_frame s2 k (out ≠ .tickFails)
          have hte := tick_engine (s := s2) (k := k) (by rw [hl2]; exact hlt1) (out ≠ .tickFails)
          rw [hself2] at hte f5
          simp only [Bool.false_eq_true, if_false] at hte f5
          refine key (s2.tick k (out ≠ .tickFails)) ⟨true, !decide (out ≠ .tickFails), 0 + 1, some cfg⟩ _ (f1.trans hcur2) (f2.trans htask2)
            (f3.trans (hl2.trans hl1)) (fun j => ?_) (by simp) (fun x => by simp at x) ?_
          · rw [hte]
            by_cases hj : j = k
            · rw [if_pos hj, if_pos hj]
            · rw [if_neg hj, if_neg hj, hother2 j hj, hother j hj]
          · by_cases ht : out = .tickFails
            · rw [if_pos ht]
              trivial
            · rw [if_neg ht]
              refine ⟨k, f1.trans hcur2, ?_, fun x => by simp at x, fun _ => .inl ⟨?_, ?_, ?_⟩⟩ <;> rw [hte, if_pos rfl]
              simp [ht]

theorem inv_step {s : State} (h : Inv s) (e : Ev) (hc : ∀ c, e = .call c → ∀ t ∈ s.tasks, Task.Finished t) : Inv (s.step e) := by
  cases e with
  | call c => exact inv_call h (hc c rfl) c
  | resume i out =>
    cases hi : s.tasks[i]? with
    | none =>
      simp only [State.step, hi]
      exact h
    | some t => exact inv_resume h hi out
  | fire k ok => exact inv_fire h k ok

theorem run_append (a b : List Ev) : run (a ++ b) = b.foldl State.step (run a) := by simp [run]

theorem sequential_prefix {a b : List Ev} (h : Sequential (a ++ b)) : Sequential a := by
  intro before c after e
  exact h before c (after ++ b) (by rw [e]; simp)

/-- The invariant holds after all sequential histories. -/
theorem inv_run (es : List Ev) (hs : Sequential es) : Inv (run es) := by
  have : ∀ l : List Ev, Sequential l.reverse → Inv (run l.reverse) := by
    intro l
    induction l with
    | nil => exact fun _ => inv_init
    | cons e l ih =>
      rw [List.reverse_cons]
      intro hs
      rw [run_append]
      exact inv_step (ih (sequential_prefix hs)) e fun c hc => hs l.reverse c [] (by rw [hc])
  have := this es.reverse
  rw [List.reverse_reverse] at this
  exact this hs

theorem start_engine {s : State} {k : Nat} (hk : s.current = some k) (hlt : k < s.engines.length) (he : s.engine k = {}) {out : Outcome}
    (ho : out ≠ .initFails) (d : Bool) : ∀ j, (s.start d out).1.engine j =
      if j = k then (if d then { config := some s.fs } else ⟨true, decide (out = .tickFails), 1, some s.fs⟩) else s.engine j := by
  intro j
  simp only [State.start, hk]
  cases d with
  | true =>
    simp only [if_true]
    rw [if_neg ho, engine_update_self s hlt, he]
    simp only [Bool.false_eq_true, if_false]
    by_cases hj : j = k
    · rw [if_pos hj, hj, engine_update_self s hlt, he]
    · rw [if_neg hj, engine_update_other s hj]
  | false =>
    simp only [Bool.false_eq_true, if_false]
    rw [if_neg ho, engine_update_self _ (by rw [length_update]; exact hlt), engine_update_self s hlt, he]
    simp only [if_true]
    rw [tick_engine (by rw [length_update, length_update]; exact hlt), engine_update_self _ (by rw [length_update]; exact hlt), engine_update_self s hlt, he]
    simp only [Bool.false_eq_true, if_false]
    by_cases hj : j = k
    · rw [if_pos hj, if_pos hj]
      by_cases ht : out = .tickFails <;> simp [ht, State.update]
    · rw [if_neg hj, if_neg hj, engine_update_other _ hj, engine_update_other _ hj]

theorem alive_call {s : State} (h : Alive s) (c : Call) : Alive (s.call c) := by
  unfold State.call
  cases hc : s.current with
  | none => exact h
  | some k =>
    have : Alive (s.update k fun e => { e with triggerStop := true }) := by
      intro j hj
      rw [engine_update] at hj ⊢
      split at hj
      · rename_i hjk
        rw [if_pos hjk]
        exact h k hj
      · rename_i hjk
        rw [if_neg hjk]
        exact h j hj
    simp only
    split <;> exact this

theorem alive_step {s : State} (hs : Inv s) (h : Alive s) (e : Ev) (he : ∀ i, e ≠ .resume i .initFails) : Alive (s.step e) := by
  cases e with
  | call c => exact alive_call h c
  | fire k ok =>
    by_cases hp : (s.engine k).pending = 0
    · simp only [State.step, if_pos hp]
      exact h
    intro j hj
    rw [fire_engine hs hp] at hj ⊢
    by_cases hjk : j = k
    · rw [if_pos hjk] at hj ⊢
      by_cases ht : (s.engine k).triggerStop = true
      · rw [if_pos ht] at hj
        exact absurd hj (by simp)
      · rw [if_neg ht] at hj ⊢
        exact h k hj
    · rw [if_neg hjk] at hj ⊢
      exact h j hj
  | resume i out =>
    have ho : out ≠ .initFails := fun x => he i (by rw [x])
    cases hi : s.tasks[i]? with
    | none =>
      simp only [State.step, hi]
      exact h
    | some t =>
      simp only [State.step, hi]
      suffices Alive (s.resume t out).1 from this
      by_cases hn : Task.Finished t
      · rw [resume_finished s t out hn]
        exact h
      have hl : i + 1 = s.tasks.length := (hs.tasks i t hi).resolve_left hn
      have hok := hs.last t (by rw [List.getLast?_eq_getElem?, ← hl, Nat.add_sub_cancel]; exact hi)
      obtain ⟨c, p⟩ := t
      cases p with
      | done => exact absurd (.inl rfl) hn
      | failed => exact absurd (.inr rfl) hn
      | stopping =>
        simp only [State.resume]
        split <;> exact h
      | reading =>
        cases c with
        | stop => exact h
        | run cfg d =>
          simp only [State.resume]
          split <;> exact h
      | written =>
        cases c with
        | stop => exact h
        | run cfg d =>
          simp only [State.resume]
          split
          · exact h
          · intro j hj
            simp only [State.engine] at hj ⊢
            by_cases hj' : j < s.engines.length
            · rw [List.getElem?_append_left hj'] at hj ⊢
              exact h j hj
            · by_cases hj'' : j = s.engines.length
              · subst hj''
                rw [List.getElem?_concat_length] at hj
                exact absurd hj (by simp)
              · rw [List.getElem?_eq_none (by simp; omega)] at hj
                exact absurd hj (by simp)
      | created =>
        cases c with
        | stop => exact h
        | run cfg d =>
          simp only [State.resume]
          split
          · exact h
          · obtain ⟨-, k, hk, hek⟩ := hok
            intro j hj
            rw [start_engine hk (hs.bound k hk) hek ho] at hj ⊢
            by_cases hjk : j = k
            · rw [if_pos hjk] at hj ⊢
              cases d with
              | true => exact absurd hj (by simp)
              | false => rfl
            · rw [if_neg hjk] at hj ⊢
              exact h j hj

/-- Each engine which runs has a timeout, if no configuration had an error. -/
theorem alive_run (es : List Ev) (hs : Sequential es) (hn : NoInitFailure es) : Alive (run es) := by
  have : ∀ l : List Ev, Sequential l.reverse → NoInitFailure l.reverse → Alive (run l.reverse) := by
    intro l
    induction l with
    | nil => intro _ _ k hk; simp [run, State.engine] at hk
    | cons e l ih =>
      rw [List.reverse_cons]
      intro hs hn
      rw [run_append]
      exact alive_step (inv_run _ (sequential_prefix hs)) (ih (sequential_prefix hs) fun i hi => hn i (List.mem_append_left _ hi)) e
        fun i hi => hn i (by rw [hi]; simp)
  have := this es.reverse
  rw [List.reverse_reverse] at this
  exact this hs hn

/-- Without timeouts nothing happens. -/
theorem quiet {s : State} (h : ∀ k, (s.engine k).pending = 0) (es : List Ev) (ho : OnlyTimeouts es) : es.foldl State.step s = s := by
  induction es with
  | nil => rfl
  | cons e es ih =>
    obtain ⟨k, ok, rfl⟩ := ho e List.mem_cons_self
    rw [List.foldl_cons]
    simp only [State.step, if_pos (h k)]
    exact ih fun x hx => ho x (List.mem_cons_of_mem _ hx)

/-- The engine 0 runs without a timeout: nothing ends any more. -/
structure Stuck (s : State) : Prop where
  cur : s.current = some 0
  len : 0 < s.engines.length
  run : (s.engine 0).running = true
  none : ∀ k, (s.engine k).pending = 0
  first : ∃ t, s.tasks[0]? = some t ∧ t.phase = .failed
  waits : ∀ i t, s.tasks[i]? = some t → 0 < i → t.phase = .stopping

theorem stuck_step {s : State} (h : Stuck s) (e : Ev) : Stuck (s.step e) := by
  obtain ⟨t0, ht0, hf⟩ := h.first
  have hpos : 0 < s.tasks.length := (List.getElem?_eq_some_iff.1 ht0).1
  cases e with
  | call c =>
    simp only [State.step, State.call, h.cur]
    have he := engine_update s 0
    have hw : (s.update 0 fun e => { e with triggerStop := true }).waits = true := by
      unfold State.waits
      have e : (s.update 0 fun e => { e with triggerStop := true }).current = some 0 := h.cur
      rw [e]
      simp only
      rw [engine_update_self s h.len]
      exact h.run
    rw [if_pos hw]
    refine ⟨h.cur, by rw [length_update]; exact h.len, ?_, fun k => ?_, ⟨t0, ?_, hf⟩, fun i t hi hp => ?_⟩
    · show ((s.update 0 _).engine 0).running = true
      rw [engine_update_self s h.len]
      exact h.run
    · show ((s.update 0 _).engine k).pending = 0
      rw [engine_update]
      split <;> exact h.none _
    · show (s.tasks ++ _)[0]? = _
      rw [List.getElem?_append_left hpos]
      exact ht0
    · by_cases hl : i < s.tasks.length
      · refine h.waits i t ?_ hp
        have : (s.tasks ++ [⟨c, .stopping⟩])[i]? = some t := hi
        rwa [List.getElem?_append_left hl] at this
      · have : (s.tasks ++ [⟨c, .stopping⟩])[i]? = some t := hi
        rw [List.getElem?_append_right (by omega)] at this
        have h0 := (List.getElem?_eq_some_iff.1 this).1
        have : i - s.tasks.length = 0 := by simp at h0; omega
        simp_all
        subst_vars
        simp
  | fire k ok =>
    simp only [State.step, if_pos (h.none k)]
    exact h
  | resume i out =>
    cases hi : s.tasks[i]? with
    | none => simp only [State.step, hi]; exact h
    | some t =>
      have hr : s.resume t out = (s, t.phase) := by
        by_cases hp : 0 < i
        · have := h.waits i t hi hp
          obtain ⟨c, p⟩ := t
          simp only at this
          subst this
          simp only [State.resume]
          rw [if_pos]
          unfold State.waits
          rw [h.cur]
          exact h.run
        · have : i = 0 := by omega
          subst this
          rw [ht0] at hi
          rw [← Option.some.inj hi]
          exact resume_finished _ _ _ (.inr hf)
      have he : s.tasks.set i { t with phase := t.phase } = s.tasks := by
        obtain ⟨hl, he⟩ := List.getElem?_eq_some_iff.1 hi
        subst he
        exact List.set_getElem_self hl
      simp only [State.step, hi, hr, he]
      exact h

theorem stuck_run {s : State} (h : Stuck s) (es : List Ev) : Stuck (es.foldl State.step s) := by
  induction es generalizing s with
  | nil => exact h
  | cons e es ih => exact ih (stuck_step h e)

end PySwitch.Runner
