import Verif.Spec.Monitor

/-!
The MIDI monitor.
-/

namespace PySwitch.Monitor
open Spec

theorem cleanup_drop (rows : List Row) : cleanup rows = rows.drop (rows.length - maxRows) := by
  induction rows with
  | nil => simp [cleanup, maxRows]
  | cons r rows ih =>
    unfold cleanup
    by_cases h : (r :: rows).length > maxRows
    · rw [if_pos h]
      simp only
      rw [ih]
      have : (r :: rows).length - maxRows = (rows.length - maxRows) + 1 := by
        simp only [List.length_cons] at h ⊢
        omega
      rw [this, List.drop_succ_cons]
    · rw [if_neg h]
      have : (r :: rows).length - maxRows = 0 := by omega
      rw [this]
      rfl

/-- The last rows after one more. -/
theorem last_append (all : List Row) (r : Row) :
    cleanup (all.drop (all.length - maxRows) ++ [r]) = (all ++ [r]).drop ((all ++ [r]).length - maxRows) := by
  rw [cleanup_drop, ← List.drop_append_of_le_length (by omega), List.drop_drop]
  have h : all.length - maxRows + ((List.drop (all.length - maxRows) (all ++ [r])).length - maxRows) = (all ++ [r]).length - maxRows := by
    simp only [List.length_drop, List.length_append, List.length_singleton]
    generalize maxRows = m
    omega
  rw [h]

theorem snoc_split (es : List Ev) (ev x : Ev) (a b : List Ev) :
    es ++ [ev] = a ++ x :: b ↔ (b = [] ∧ a = es ∧ x = ev) ∨ ∃ b', b = b' ++ [ev] ∧ es = a ++ x :: b' := by
  constructor
  · intro h
    rcases List.eq_nil_or_concat b with rfl | ⟨b', y, rfl⟩
    · have := List.append_inj' h rfl
      exact .inl ⟨rfl, this.1.symm, (List.cons.inj this.2).1.symm⟩
    · rw [List.concat_eq_append, ← List.cons_append, ← List.append_assoc] at h
      have := List.append_inj' h rfl
      have hy := (List.cons.inj this.2).1
      subst hy
      exact .inr ⟨b', List.concat_eq_append, this.1⟩
  · rintro (⟨rfl, rfl, rfl⟩ | ⟨b', rfl, rfl⟩)
    · rfl
    · simp

theorem running_snoc (es : List Ev) (ev : Ev) : Running (es ++ [ev]) ↔ ev = .resume ∨ (ev ≠ .stop ∧ Running es) := by
  constructor
  · rintro ⟨a, b, h, hs⟩
    rcases (snoc_split es ev _ a b).1 h with ⟨-, -, he⟩ | ⟨b', rfl, h'⟩
    · exact .inl he.symm
    · exact .inr ⟨fun x => hs (by rw [x]; simp), a, b', h', fun x => hs (List.mem_append_left _ x)⟩
  · rintro (rfl | ⟨hn, a, b, rfl, hs⟩)
    · exact ⟨es, [], rfl, by simp⟩
    · exact ⟨a, b ++ [ev], by simp, by simp [hs, Ne.symm hn]⟩

/-- Something with these bytes is ignored. -/
def Active (es : List Ev) (bytes : List Nat) : Prop :=
  ∃ b1 b2 e', es = b1 ++ Ev.ignore e' :: b2 ∧ e'.bytes = bytes ∧ ∀ x, .unignore x ∈ b2 → x.bytes ≠ bytes

theorem active_snoc (es : List Ev) (ev : Ev) (bytes : List Nat) :
    Active (es ++ [ev]) bytes ↔ (∃ e, ev = .ignore e ∧ e.bytes = bytes) ∨ (Active es bytes ∧ ∀ x, ev = .unignore x → x.bytes ≠ bytes) := by
  constructor
  · rintro ⟨a, b, e, h, he, hs⟩
    rcases (snoc_split es ev _ a b).1 h with ⟨-, -, hx⟩ | ⟨b', rfl, h'⟩
    · exact .inl ⟨e, hx.symm, he⟩
    · exact .inr ⟨⟨a, b', e, h', he, fun x hx => hs x (List.mem_append_left _ hx)⟩, fun x hx => hs x (by rw [hx]; simp)⟩
  · rintro (⟨e, rfl, he⟩ | ⟨⟨a, b, e, rfl, he, hs⟩, hn⟩)
    · exact ⟨es, [], e, rfl, he, fun x hx => by simp at hx⟩
    · refine ⟨a, b ++ [ev], e, by simp, he, fun x hx => ?_⟩
      rcases List.mem_append.1 hx with hx | hx
      · exact hs x hx
      · exact hn x (List.mem_singleton.1 hx).symm

theorem ignored_snoc (es : List Ev) (ev : Ev) (e : Entry) :
    Ignored (es ++ [ev]) e ↔ (ev = .ignore e ∧ ¬ Active es e.bytes) ∨ (Ignored es e ∧ ∀ x, ev = .unignore x → x.bytes ≠ e.bytes) := by
  constructor
  · rintro ⟨a, b, h, hs, hp⟩
    rcases (snoc_split es ev _ a b).1 h with ⟨-, rfl, hx⟩ | ⟨b', rfl, h'⟩
    · exact .inl ⟨hx.symm, hp⟩
    · exact .inr ⟨⟨a, b', h', fun x hx => hs x (List.mem_append_left _ hx), hp⟩, fun x hx => hs x (by rw [hx]; simp)⟩
  · rintro (⟨rfl, hp⟩ | ⟨⟨a, b, rfl, hs, hp⟩, hn⟩)
    · exact ⟨es, [], rfl, fun x hx => by simp at hx, hp⟩
    · refine ⟨a, b ++ [ev], by simp, fun x hx => ?_, hp⟩
      rcases List.mem_append.1 hx with hx | hx
      · exact hs x hx
      · exact hn x (List.mem_singleton.1 hx).symm

theorem run_snoc (es : List Ev) (ev : Ev) : run (es ++ [ev]) = (run es).step ev := by simp [run]

theorem add_frame (s : State) (r : Row) : (s.add r).run = s.run ∧ (s.add r).exclude = s.exclude ∧ (s.add r).storedRun = s.storedRun ∧
    (s.add r).storedExclude = s.storedExclude := ⟨rfl, rfl, rfl, rfl⟩

/-- The state apart from the rows. -/
structure Good (es : List Ev) (s : State) : Prop where
  storedRun : s.storedRun = s.run
  storedExclude : s.storedExclude = s.exclude
  run : s.run = true ↔ Running es
  exclude : ∀ e, e ∈ s.exclude ↔ Ignored es e
  active : ∀ b, (∃ e ∈ s.exclude, e.bytes = b) ↔ Active es b

theorem good_nil : Good [] {} := by
  refine ⟨rfl, rfl, ?_, fun e => ?_, fun b => ?_⟩
  · simp [Running]
  · simp [Ignored]
  · simp [Active]

/-- An event which changes nothing here. -/
theorem good_same {es : List Ev} {s s' : State} (h : Good es s) (ev : Ev) (h1 : s'.run = s.run) (h2 : s'.exclude = s.exclude) (h3 : s'.storedRun = s.storedRun)
    (h4 : s'.storedExclude = s.storedExclude) (hr : ev = .resume → Running es) (hs : ev = .stop → ¬ Running es)
    (hi : ∀ e, ev = .ignore e → Active es e.bytes) (hu : ∀ e, ev ≠ .unignore e) : Good (es ++ [ev]) s' := by
  refine ⟨by rw [h1, h3, h.storedRun], by rw [h2, h4, h.storedExclude], ?_, fun e => ?_, fun b => ?_⟩
  · rw [h1, h.run, running_snoc]
    constructor
    · intro x
      exact .inr ⟨fun y => hs y x, x⟩
    · rintro (x | x)
      · exact hr x
      · exact x.2
  · rw [h2, h.exclude, ignored_snoc]
    constructor
    · exact fun x => .inr ⟨x, fun y hy => absurd hy (hu y)⟩
    · rintro (x | x)
      · exact absurd (hi e x.1) x.2
      · exact x.1
  · rw [h2, h.active, active_snoc]
    constructor
    · exact fun x => .inr ⟨x, fun y hy => absurd hy (hu y)⟩
    · rintro (⟨e, x, rfl⟩ | x)
      · exact hi e x
      · exact x.1

theorem good_step {es : List Ev} {s : State} (h : Good es s) (ev : Ev) : Good (es ++ [ev]) (s.step ev) := by
  cases ev with
  | message i b n =>
    refine good_same h _ ?_ ?_ ?_ ?_ (by simp) (by simp) (by simp) (by simp) <;>
    · simp only [State.step]
      split
      · rfl
      · split <;> rfl
  | clear => exact good_same h _ rfl rfl rfl rfl (by simp) (by simp) (by simp) (by simp)
  | reload => exact good_same h _ h.storedRun h.storedExclude rfl rfl (by simp) (by simp) (by simp) (by simp)
  | resume =>
    have e : ∀ s' : State, s'.exclude = s.exclude → s'.storedExclude = s.storedExclude → s'.run = true → s'.storedRun = true → Good (es ++ [.resume]) s' := by
      intro s' g1 g2 g3 g4
      refine ⟨by rw [g3, g4], by rw [g1, g2, h.storedExclude], ?_, fun e => ?_, fun b => ?_⟩
      · rw [g3, running_snoc]
        simp
      · rw [g1, h.exclude, ignored_snoc]
        simp
      · rw [g1, h.active, active_snoc]
        simp
    apply e <;>
    · simp only [State.step]
      try split <;> rfl
  | stop =>
    have e : ∀ s' : State, s'.exclude = s.exclude → s'.storedExclude = s.storedExclude → s'.run = false → s'.storedRun = false → Good (es ++ [.stop]) s' := by
      intro s' g1 g2 g3 g4
      refine ⟨by rw [g3, g4], by rw [g1, g2, h.storedExclude], ?_, fun e => ?_, fun b => ?_⟩
      · rw [g3, running_snoc]
        simp
      · rw [g1, h.exclude, ignored_snoc]
        simp
      · rw [g1, h.active, active_snoc]
        simp
    apply e <;>
    · simp only [State.step]
      try split <;> rfl
  | ignore e =>
    have hany : (s.exclude.any fun x => x.bytes == e.bytes) = true ↔ Active es e.bytes := by
      rw [← h.active, List.any_eq_true]
      simp
    simp only [State.step]
    by_cases ha : (s.exclude.any fun x => x.bytes == e.bytes) = true
    · rw [if_pos ha]
      refine good_same h _ rfl rfl rfl rfl (by simp) (by simp) (fun x hx => ?_) (by simp)
      rw [← (Ev.ignore.inj hx)]
      exact hany.1 ha
    · rw [if_neg ha]
      refine ⟨h.storedRun, rfl, ?_, fun x => ?_, fun b => ?_⟩
      · rw [running_snoc]
        simp [h.run]
      · simp only [List.mem_append, List.mem_singleton]
        rw [h.exclude, ignored_snoc]
        constructor
        · rintro (hx | rfl)
          · exact .inr ⟨hx, by simp⟩
          · exact .inl ⟨rfl, fun y => ha (hany.2 y)⟩
        · rintro (⟨hx, -⟩ | hx)
          · exact .inr (Ev.ignore.inj hx).symm
          · exact .inl hx.1
      · rw [active_snoc, ← h.active]
        constructor
        · rintro ⟨x, hx, rfl⟩
          rcases List.mem_append.1 hx with hx | hx
          · exact .inr ⟨⟨x, hx, rfl⟩, by simp⟩
          · exact .inl ⟨e, rfl, by rw [List.mem_singleton.1 hx]⟩
        · rintro (⟨x, hx, rfl⟩ | ⟨⟨x, hx, rfl⟩, -⟩)
          · exact ⟨e, by simp, by rw [Ev.ignore.inj hx]⟩
          · exact ⟨x, List.mem_append_left _ hx, rfl⟩
  | unignore e =>
    simp only [State.step]
    refine ⟨h.storedRun, rfl, ?_, fun x => ?_, fun b => ?_⟩
    · rw [running_snoc]
      simp [h.run]
    · simp only [List.mem_filter, bne_iff_ne]
      rw [h.exclude, ignored_snoc]
      constructor
      · rintro ⟨hx, hn⟩
        refine .inr ⟨hx, fun y hy => ?_⟩
        rw [← Ev.unignore.inj hy]
        exact Ne.symm hn
      · rintro (⟨hx, -⟩ | ⟨hx, hn⟩)
        · exact absurd hx (by simp)
        · exact ⟨hx, Ne.symm (hn e rfl)⟩
    · rw [active_snoc, ← h.active]
      constructor
      · rintro ⟨x, hx, rfl⟩
        obtain ⟨hx, hn⟩ := List.mem_filter.1 hx
        refine .inr ⟨⟨x, hx, rfl⟩, fun y hy => ?_⟩
        rw [← Ev.unignore.inj hy]
        exact Ne.symm (bne_iff_ne.1 hn)
      · rintro (⟨x, hx, -⟩ | ⟨⟨x, hx, rfl⟩, hn⟩)
        · exact absurd hx (by simp)
        · exact ⟨x, List.mem_filter.2 ⟨hx, bne_iff_ne.2 (Ne.symm (hn e rfl))⟩, rfl⟩

theorem good_run (es : List Ev) : Good es (run es) := by
  have : ∀ l : List Ev, Good l.reverse (run l.reverse) := by
    intro l
    induction l with
    | nil => exact good_nil
    | cons e l ih =>
      rw [List.reverse_cons, run_snoc]
      exact good_step ih e
  have := this es.reverse
  rwa [List.reverse_reverse] at this

theorem matches_iff (e : Entry) (bytes : List Nat) (name : Option String) : matchesEntry e bytes name = true ↔ Meant e bytes name := by
  unfold matchesEntry Meant
  cases name with
  | none =>
    simp only [beq_iff_eq]
    rw [List.prefix_iff_eq_take]
    simp [eq_comm]
  | some n =>
    cases hn : e.name with
    | none =>
      simp only [beq_iff_eq]
      rw [List.prefix_iff_eq_take]
      simp [eq_comm]
    | some m =>
      simp only [beq_iff_eq]
      simp [eq_comm]

/-- What is shown. -/
theorem visible_iff (es : List Ev) (b : List Nat) (n : Option String) :
    Visible es b n ↔ (run es).run = true ∧ doExclude (run es).exclude b n = false := by
  have h := good_run es
  unfold Visible
  rw [← h.run]
  refine and_congr_right fun _ => ?_
  rw [← Bool.not_eq_true, doExclude, List.any_eq_true]
  refine not_congr ⟨?_, ?_⟩
  · rintro ⟨e, he, hm⟩
    exact ⟨e, (h.exclude e).2 he, (matches_iff _ _ _).2 hm⟩
  · rintro ⟨e, he, hm⟩
    exact ⟨e, (h.exclude e).1 he, (matches_iff _ _ _).1 hm⟩

theorem rows_added {es : List Ev} {all : List Row} (h : Added es all) : (run es).rows = all.drop (all.length - maxRows) := by
  induction h with
  | nil => rfl
  | @shown es rows i b n _ hv ih =>
    obtain ⟨h1, h2⟩ := (visible_iff es b n).1 hv
    rw [run_snoc]
    simp only [State.step, h1, h2, Bool.not_true, Bool.false_eq_true, if_false, State.add]
    rw [ih, last_append]
  | @hidden es rows i b n _ hv ih =>
    rw [run_snoc, ← ih]
    simp only [State.step]
    by_cases h1 : (run es).run = true
    · have h2 : doExclude (run es).exclude b n = true := by
        cases hd : doExclude (run es).exclude b n with
        | true => rfl
        | false => exact absurd ((visible_iff es b n).2 ⟨h1, hd⟩) hv
      simp [h1, h2]
    · simp [h1]
  | @ignore es rows e _ ih =>
    rw [run_snoc, ← ih]
    simp only [State.step]
    split <;> rfl
  | @unignore es rows e _ ih => rw [run_snoc, ← ih]; rfl
  | @clear es rows _ ih => rw [run_snoc]; rfl
  | @reload es rows _ ih => rw [run_snoc]; rfl
  | @resume es rows _ hr ih =>
    have h1 : (run es).run = false := by
      rw [← Bool.not_eq_true, (good_run es).run]
      exact hr
    rw [run_snoc]
    simp only [State.step, h1, Bool.not_false, if_true, State.add]
    rw [ih, last_append]
  | @resumed es rows _ hr ih =>
    have h1 := (good_run es).run.2 hr
    rw [run_snoc, ← ih]
    simp only [State.step, h1, Bool.not_true, Bool.false_eq_true, if_false]
  | @stop es rows _ hr ih =>
    have h1 := (good_run es).run.2 hr
    rw [run_snoc]
    simp only [State.step, h1, if_true, State.add]
    rw [ih, last_append]
  | @stopped es rows _ hr ih =>
    have h1 : (run es).run = false := by
      rw [← Bool.not_eq_true, (good_run es).run]
      exact hr
    rw [run_snoc, ← ih]
    simp only [State.step, h1, Bool.false_eq_true, if_false]

/-- Every history adds some rows. -/
theorem added_exists (es : List Ev) : ∃ all, Added es all := by
  have : ∀ l : List Ev, ∃ all, Added l.reverse all := by
    intro l
    induction l with
    | nil => exact ⟨[], .nil⟩
    | cons e l ih =>
      rw [List.reverse_cons]
      obtain ⟨all, h⟩ := ih
      cases e with
      | message i b n =>
        by_cases hv : Visible l.reverse b n
        · exact ⟨_, .shown i b n h hv⟩
        · exact ⟨_, .hidden i b n h hv⟩
      | ignore e => exact ⟨_, .ignore e h⟩
      | unignore e => exact ⟨_, .unignore e h⟩
      | clear => exact ⟨_, .clear h⟩
      | reload => exact ⟨_, .reload h⟩
      | resume =>
        by_cases hr : Running l.reverse
        · exact ⟨_, .resumed h hr⟩
        · exact ⟨_, .resume h hr⟩
      | stop =>
        by_cases hr : Running l.reverse
        · exact ⟨_, .stop h hr⟩
        · exact ⟨_, .stopped h hr⟩
  have := this es.reverse
  rwa [List.reverse_reverse] at this

end PySwitch.Monitor
