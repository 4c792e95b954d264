import Verif.Lemmas.Monitor

/-!
C145: The MIDI monitor shows the last messages, and hides exactly those which are ignored.

`run es` is the state after the events `es`, beginning with an empty local storage.
-/

namespace PySwitch.Props
open PySwitch.Monitor PySwitch.Monitor.Spec

/-- The table shows the last 100 of the rows which have been added since it was cleared, in their order: the messages (with their direction and bytes) which came while
the monitor was running and were not ignored at that time, and comments when the monitor was resumed and stopped. -/
theorem C145_rows (es : List Ev) (all : List Row) (h : Added es all) : (run es).rows = all.drop (all.length - 100) := rows_added h

/-- Every history has such rows. -/
theorem C145_total (es : List Ev) : ∃ all, Added es all := added_exists es

/-- A message is added exactly if it is visible. -/
theorem C145_message (es : List Ev) (i : Bool) (b : List Nat) (n : Option String) :
    (Visible es b n → (run (es ++ [.message i b n])).rows = ((run es).rows ++ [Row.message i b n]).drop ((run es).rows.length + 1 - 100)) ∧
    (¬ Visible es b n → (run (es ++ [.message i b n])).rows = (run es).rows) := by
  constructor
  · intro hv
    obtain ⟨h1, h2⟩ := (visible_iff es b n).1 hv
    rw [run_snoc]
    simp only [State.step, h1, h2, Bool.not_true, Bool.false_eq_true, if_false, State.add]
    rw [cleanup_drop, List.length_append]
    rfl
  · intro hv
    obtain ⟨all, h⟩ := added_exists es
    rw [rows_added h, rows_added (.hidden i b n h hv)]

/-- There are never more than 100 rows. -/
theorem C145_bounded (es : List Ev) : (run es).rows.length ≤ 100 := by
  obtain ⟨all, h⟩ := added_exists es
  rw [rows_added h, List.length_drop]
  simp only [maxRows]
  omega

/-- Loading the page again changes neither if the monitor runs nor what is ignored. -/
theorem C145_reload (es : List Ev) (b : List Nat) (n : Option String) :
    ((run (es ++ [.reload])).run = (run es).run ∧ (run (es ++ [.reload])).exclude = (run es).exclude) ∧ (Visible (es ++ [.reload]) b n ↔ Visible es b n) := by
  have h := good_run es
  have e : (run (es ++ [.reload])).run = (run es).run ∧ (run (es ++ [.reload])).exclude = (run es).exclude := by
    rw [run_snoc]
    exact ⟨h.storedRun, h.storedExclude⟩
  refine ⟨e, ?_⟩
  rw [visible_iff, visible_iff, e.1, e.2]

/-- The list of ignored messages shows exactly the messages which are ignored, and no bytes twice. -/
theorem C145_list (es : List Ev) : (∀ e, e ∈ (run es).exclude ↔ Ignored es e) ∧ ((run es).exclude.map (·.bytes)).Nodup := by
  refine ⟨(good_run es).exclude, ?_⟩
  have : ∀ l : List Ev, ((run l.reverse).exclude.map (·.bytes)).Nodup := by
    intro l
    induction l with
    | nil => exact List.nodup_nil
    | cons e l ih =>
      rw [List.reverse_cons, run_snoc]
      have hg := good_run l.reverse
      generalize run l.reverse = s at ih hg
      cases e with
      | message i b n =>
        simp only [State.step]
        split
        · exact ih
        · split <;> exact ih
      | clear => exact ih
      | reload =>
        show (s.storedExclude.map _).Nodup
        rw [hg.storedExclude]
        exact ih
      | resume =>
        simp only [State.step]
        split <;> exact ih
      | stop =>
        simp only [State.step]
        split <;> exact ih
      | ignore e =>
        simp only [State.step]
        by_cases ha : (s.exclude.any fun x => x.bytes == e.bytes) = true
        · rw [if_pos ha]
          exact ih
        · rw [if_neg ha]
          simp only [List.map_append, List.map_cons, List.map_nil]
          rw [List.nodup_append]
          refine ⟨ih, by simp, fun a hx b hy hab => ha ?_⟩
          obtain ⟨y, hy1, hy2⟩ := List.mem_map.1 hx
          rw [List.any_eq_true]
          refine ⟨y, hy1, ?_⟩
          rw [beq_iff_eq, hy2, hab]
          exact List.mem_singleton.1 hy
      | unignore e =>
        exact List.Nodup.sublist (List.Sublist.map _ List.filter_sublist) ih
  have := this es.reverse
  rwa [List.reverse_reverse] at this

/-- Ignoring a message hides it from then on, until it is removed from the list again. -/
theorem C145_ignore (es more : List Ev) (e : Entry) (hm : ∀ x, .unignore x ∈ more → x.bytes ≠ e.bytes)
    (hn : ∀ x, .ignore x ∈ es → x.bytes = e.bytes → x = e) : ¬ Visible (es ++ .ignore e :: more) e.bytes e.name := by
  intro hv
  have self : Meant e e.bytes e.name := by
    unfold Meant
    cases e.name with
    | none => exact .inr ⟨.inl rfl, List.prefix_refl _⟩
    | some n => exact .inl ⟨n, rfl, rfl⟩
  apply hv.2
  -- the active entry with these bytes
  have ha : Active (es ++ .ignore e :: more) e.bytes := ⟨es, more, e, rfl, rfl, hm⟩
  obtain ⟨x, hx, hb⟩ := ((good_run _).active e.bytes).2 ha
  have hi := ((good_run _).exclude x).1 hx
  refine ⟨x, hi, ?_⟩
  obtain ⟨a, b, hab, hs, hp⟩ := hi
  have : x = e := by
    rcases List.append_eq_append_iff.1 hab with ⟨c, h1, h2⟩ | ⟨c, h1, h2⟩
    · cases c with
      | nil => rw [List.nil_append] at h2; exact (Ev.ignore.inj (List.cons.inj h2).1).symm
      | cons y c =>
        obtain ⟨rfl, h3⟩ := List.cons.inj h2
        exact absurd ⟨es, c, e, h1, hb.symm, fun z hz => by rw [hb]; exact hm z (by rw [h3]; exact List.mem_append_left _ hz)⟩ hp
    · cases c with
      | nil => rw [List.nil_append] at h2; exact Ev.ignore.inj (List.cons.inj h2).1
      | cons y c =>
        obtain ⟨rfl, -⟩ := List.cons.inj h2
        exact hn x (by rw [h1]; simp) hb
  rw [this]
  exact self

/-- The name of a rig, in two messages. -/
def c145Name : Entry := ⟨[240, 0, 32, 51, 2, 127, 3, 0, 0, 1, 65, 0, 247], some "Kemper: Rig Name"⟩

/-- A history with an ignored message, and another message. -/
def c145History : List Ev :=
  [.message true [176, 1, 2] none, .resume, .message true c145Name.bytes c145Name.name, .message false [176, 1, 2] none, .ignore c145Name,
   .message true [240, 0, 32, 51, 2, 127, 3, 0, 0, 1, 66, 0, 247] c145Name.name, .message true [176, 1, 3] none, .stop, .message true [176, 1, 3] none]

example : (run c145History).rows = [.comment "resumed", .message true c145Name.bytes c145Name.name, .message false [176, 1, 2] none,
    .message true [176, 1, 3] none, .comment "stopped"] := by decide +kernel

example : (run (c145History ++ [.unignore c145Name, .resume, .message true c145Name.bytes c145Name.name])).rows.length = 7 := by decide +kernel

example : Visible [.resume, .ignore c145Name] [176, 1, 2] none ∧ ¬ Visible [.resume, .ignore c145Name] c145Name.bytes c145Name.name := by
  rw [visible_iff, visible_iff]
  decide +kernel

end PySwitch.Props
