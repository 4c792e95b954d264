import Verif.Spec.MonitorOptions
/-
C212: the buttons and options of the MIDI monitor.
-/
namespace PySwitch.Props
open PySwitch.MonitorOptions PySwitch.MonitorOptions.Spec

namespace C212

def odd (n : Nat) : Bool := n % 2 == 1

theorem odd_succ (n : Nat) : odd (n + 1) = !odd n := by
  unfold odd
  rcases Nat.mod_two_eq_zero_or_one n with h | h
  · have : (n + 1) % 2 = 1 := by omega
    simp [h, this]
  · have : (n + 1) % 2 = 0 := by omega
    simp [h, this]

theorem run_append (es : List Ev) (e : Ev) : MonitorOptions.run (es ++ [e]) = (MonitorOptions.run es).step e := by
  simp [MonitorOptions.run, List.foldl_append]

theorem clicks_append (e x : Ev) (es : List Ev) : clicks e (es ++ [x]) = clicks e es + if x == e then 1 else 0 := by
  unfold clicks
  rw [List.filter_append, List.length_append]
  congr 1
  by_cases h : x == e <;> simp [h]

/-- Histories by their last event. -/
theorem history_rec {P : List Ev → Prop} (nil : P []) (step : ∀ es e, P es → P (es ++ [e])) (es : List Ev) : P es := by
  have : ∀ es : List Ev, P es.reverse := by
    intro es
    induction es with
    | nil => exact nil
    | cons e es ih => rw [List.reverse_cons]; exact step _ _ ih
  have h := this es.reverse
  rwa [List.reverse_reverse] at h

/-- Options, buttons, rows and local storage agree. -/
structure Inv (s : Monitor) : Prop where
  buttons : s.buttons = ⟨s.run, s.bytes, s.values, s.hex⟩
  rows : ∀ r ∈ s.rows, r.bytes = s.bytes ∧ r.values = s.values
  run : s.stored.run.getD false = s.run
  bytes : s.stored.bytes.getD false = s.bytes
  values : s.stored.values.getD true = s.values
  hex : s.stored.hex.getD false = s.hex

theorem load_options (st : Stored) : (load st).run = st.run.getD false ∧ (load st).bytes = st.bytes.getD false ∧ (load st).values = st.values.getD true ∧
    (load st).hex = st.hex.getD false := by
  obtain ⟨a, b, c, d⟩ := st
  cases a <;> cases b <;> cases c <;> cases d <;> exact ⟨rfl, rfl, rfl, rfl⟩

theorem inv_load (st : Stored) : Inv (load st) := by
  obtain ⟨h1, h2, h3, h4⟩ := load_options st
  exact ⟨rfl, fun r hr => (by cases hr), h1.symm, h2.symm, h3.symm, h4.symm⟩

theorem inv_resume {s : Monitor} (h : Inv s) : Inv s.resume :=
  ⟨by simp [Monitor.resume, h.buttons], h.rows, rfl, h.bytes, h.values, h.hex⟩

theorem inv_stop {s : Monitor} (h : Inv s) : Inv s.stop :=
  ⟨by simp [Monitor.stop, h.buttons], h.rows, rfl, h.bytes, h.values, h.hex⟩

theorem inv_step {s : Monitor} (h : Inv s) (e : Ev) : Inv (s.step e) := by
  cases e with
  | runButton =>
    simp only [Monitor.step]
    split
    · exact inv_stop h
    · exact inv_resume h
  | clearButton => exact ⟨h.buttons, fun r hr => (by cases hr), h.run, h.bytes, h.values, h.hex⟩
  | bytesButton =>
    refine ⟨by simp [Monitor.step, Monitor.setBytes, h.buttons], ?_, h.run, rfl, h.values, h.hex⟩
    intro r hr
    obtain ⟨r', hr', rfl⟩ := List.mem_map.1 hr
    exact ⟨rfl, (h.rows r' hr').2⟩
  | valuesButton =>
    refine ⟨by simp [Monitor.step, Monitor.setValues, h.buttons], ?_, h.run, h.bytes, rfl, h.hex⟩
    intro r hr
    obtain ⟨r', hr', rfl⟩ := List.mem_map.1 hr
    exact ⟨(h.rows r' hr').1, rfl⟩
  | hexButton => exact ⟨by simp [Monitor.step, Monitor.setHex, h.buttons], h.rows, h.run, h.bytes, h.values, rfl⟩
  | hint =>
    simp only [Monitor.step]
    split
    · have := inv_resume h
      exact ⟨this.buttons, this.rows, this.run, this.bytes, this.values, this.hex⟩
    · exact h
  | table => exact inv_stop h
  | leave => exact inv_stop h
  | message =>
    simp only [Monitor.step]
    split
    · refine ⟨h.buttons, ?_, h.run, h.bytes, h.values, h.hex⟩
      intro r hr
      rcases List.mem_append.1 hr with hr | hr
      · exact h.rows r hr
      · rw [List.mem_singleton.1 hr]; exact ⟨rfl, rfl⟩
    · exact h
  | reload => exact inv_load _

theorem inv_run (es : List Ev) : Inv (MonitorOptions.run es) := by
  refine history_rec (P := fun es => Inv (MonitorOptions.run es)) (inv_load _) ?_ es
  intro es e ih
  rw [run_append]
  exact inv_step ih e

end C212

/-- C212. After every history, an option is on exactly if its button has been clicked an odd number of times (an even number for the values, which are shown first), however often the page has been
loaded again, the monitor stopped or the rows cleared in between. -/
theorem C212_options (history : List Ev) :
    ((MonitorOptions.run history).bytes = true ↔ clicks .bytesButton history % 2 = 1) ∧
    ((MonitorOptions.run history).values = true ↔ clicks .valuesButton history % 2 = 0) ∧
    ((MonitorOptions.run history).hex = true ↔ clicks .hexButton history % 2 = 1) := by
  have key : (MonitorOptions.run history).bytes = C212.odd (clicks .bytesButton history) ∧
      (MonitorOptions.run history).values = !C212.odd (clicks .valuesButton history) ∧
      (MonitorOptions.run history).hex = C212.odd (clicks .hexButton history) := by
    refine C212.history_rec (P := fun es => (MonitorOptions.run es).bytes = C212.odd (clicks .bytesButton es) ∧
      (MonitorOptions.run es).values = !C212.odd (clicks .valuesButton es) ∧
      (MonitorOptions.run es).hex = C212.odd (clicks .hexButton es)) (by decide) ?_ history
    intro es e ⟨h1, h2, h3⟩
    have inv := C212.inv_run es
    simp only [C212.run_append, C212.clicks_append]
    cases e with
    | runButton => simp only [Monitor.step]; split <;> exact ⟨h1, h2, h3⟩
    | clearButton => exact ⟨h1, h2, h3⟩
    | bytesButton => exact ⟨by show (!_) = C212.odd (_ + 1); rw [C212.odd_succ, h1], h2, h3⟩
    | valuesButton => exact ⟨h1, by show (!_) = !C212.odd (_ + 1); rw [C212.odd_succ, h2], h3⟩
    | hexButton => exact ⟨h1, h2, by show (!_) = C212.odd (_ + 1); rw [C212.odd_succ, h3]⟩
    | hint => simp only [Monitor.step]; split <;> exact ⟨h1, h2, h3⟩
    | table => exact ⟨h1, h2, h3⟩
    | leave => exact ⟨h1, h2, h3⟩
    | message => simp only [Monitor.step]; split <;> exact ⟨h1, h2, h3⟩
    | reload =>
      obtain ⟨-, l2, l3, l4⟩ := C212.load_options (MonitorOptions.run es).stored
      exact ⟨l2.trans (inv.bytes.trans h1), l3.trans (inv.values.trans h2), l4.trans (inv.hex.trans h3)⟩
  obtain ⟨k1, k2, k3⟩ := key
  rw [k1, k2, k3]
  refine ⟨by simp [C212.odd], ?_, by simp [C212.odd]⟩
  rcases Nat.mod_two_eq_zero_or_one (clicks .valuesButton history) with h | h <;> simp [C212.odd, h]

/-- C212. After every history, all rows show their bytes exactly if this option is on, and the same for their values. -/
theorem C212_rows (history : List Ev) : ∀ r ∈ (MonitorOptions.run history).rows,
    (r.bytes = true ↔ clicks .bytesButton history % 2 = 1) ∧ (r.values = true ↔ clicks .valuesButton history % 2 = 0) := by
  intro r hr
  obtain ⟨h1, h2⟩ := (C212.inv_run history).rows r hr
  obtain ⟨o1, o2, -⟩ := C212_options history
  rw [h1, h2]
  exact ⟨o1, o2⟩

/-- C212. After every history, the buttons show the options, and the first one shows whether the monitor runs. -/
theorem C212_buttons (history : List Ev) :
    let s := MonitorOptions.run history
    s.buttons.pause = s.run ∧ s.buttons.bytes = s.bytes ∧ s.buttons.values = s.values ∧ s.buttons.hex = s.hex := by
  intro s
  have := (C212.inv_run history).buttons
  exact ⟨congrArg Buttons.pause this, congrArg Buttons.bytes this, congrArg Buttons.values this, congrArg Buttons.hex this⟩

/-- C212. The page is loaded again: the table is empty, and the monitor runs if and only if it did before. -/
theorem C212_reload (history : List Ev) :
    (MonitorOptions.run (history ++ [.reload])).run = (MonitorOptions.run history).run ∧ (MonitorOptions.run (history ++ [.reload])).rows = [] := by
  rw [C212.run_append]
  exact ⟨(C212.load_options _).1.trans (C212.inv_run history).run, rfl⟩

/-- C212. The button turns running over. A click on the table and leaving the tab stop the monitor. Nothing else but the hint starts or stops it. -/
theorem C212_run (history : List Ev) :
    (MonitorOptions.run (history ++ [.runButton])).run = !(MonitorOptions.run history).run ∧
    (MonitorOptions.run (history ++ [.table])).run = false ∧ (MonitorOptions.run (history ++ [.leave])).run = false ∧
    ∀ e, Quiet e → (MonitorOptions.run (history ++ [e])).run = (MonitorOptions.run history).run := by
  refine ⟨?_, by rw [C212.run_append]; rfl, by rw [C212.run_append]; rfl, ?_⟩
  · rw [C212.run_append]
    simp only [Monitor.step]
    cases h : (MonitorOptions.run history).run <;> simp [Monitor.stop, Monitor.resume]
  · intro e quiet
    cases e with
    | reload => exact (C212_reload history).1
    | message => rw [C212.run_append]; simp only [Monitor.step]; split <;> rfl
    | clearButton => rw [C212.run_append]; rfl
    | bytesButton => rw [C212.run_append]; rfl
    | valuesButton => rw [C212.run_append]; rfl
    | hexButton => rw [C212.run_append]; rfl
    | runButton => exact quiet.elim
    | hint => exact quiet.elim
    | table => exact quiet.elim
    | leave => exact quiet.elim

/-- C212. A message gets a row at the end if the monitor runs, with all options which are on, and else nothing is changed. -/
theorem C212_message (history : List Ev) :
    ((MonitorOptions.run history).run = true → ∃ r, (MonitorOptions.run (history ++ [.message])).rows = (MonitorOptions.run history).rows ++ [r] ∧
      (r.hex = true ↔ clicks .hexButton history % 2 = 1)) ∧
    ((MonitorOptions.run history).run = false → MonitorOptions.run (history ++ [.message]) = MonitorOptions.run history) := by
  rw [C212.run_append]
  simp only [Monitor.step]
  constructor
  · intro h
    rw [if_pos h]
    exact ⟨_, rfl, (C212_options history).2.2⟩
  · intro h
    rw [if_neg (by simp [h])]

/-- C212. Before the monitor is started for the first time, there is the hint, and a click on it starts the monitor and removes the hint. -/
theorem C212_hint (history : List Ev) (quiet : ∀ e ∈ history, Quiet e) :
    (MonitorOptions.run history).hint = true ∧ (MonitorOptions.run (history ++ [.hint])).run = true ∧ (MonitorOptions.run (history ++ [.hint])).hint = false := by
  have key : (∀ e ∈ history, Quiet e) → (MonitorOptions.run history).hint = true ∧ (MonitorOptions.run history).run = false := by
    refine C212.history_rec (P := fun es => (∀ e ∈ es, Quiet e) → (MonitorOptions.run es).hint = true ∧ (MonitorOptions.run es).run = false) (fun _ => by decide) ?_ history
    intro es e ih q
    obtain ⟨h1, h2⟩ := ih fun x hx => q x (by simp [hx])
    have hr := (C212_run es).2.2.2 e (q e (by simp))
    refine ⟨?_, by rw [hr, h2]⟩
    have qe := q e (by simp)
    rw [C212.run_append] at hr ⊢
    cases e with
    | reload =>
      show (!((MonitorOptions.run es).stored.run.getD false)) = true
      rw [(C212.inv_run es).run, h2]
      rfl
    | message => simp only [Monitor.step]; split <;> exact h1
    | clearButton => exact h1
    | bytesButton => exact h1
    | valuesButton => exact h1
    | hexButton => exact h1
    | runButton => exact qe.elim
    | hint => exact qe.elim
    | table => exact qe.elim
    | leave => exact qe.elim
  have h := key quiet
  refine ⟨h.1, ?_, ?_⟩ <;> rw [C212.run_append] <;> simp [Monitor.step, h.1, Monitor.resume]

/-- C212 (partial). All rows are written in hexadecimal exactly if the option is on, as long as its button is not clicked after the rows. Missing: other histories (false there, see the witness). -/
theorem C212_hex_partial (before after : List Ev) (cleared : (MonitorOptions.run before).rows = []) (noClick : .hexButton ∉ after) :
    ∀ r ∈ (MonitorOptions.run (before ++ after)).rows, (r.hex = true ↔ clicks .hexButton (before ++ after) % 2 = 1) := by
  have hex_eq : ∀ es, (MonitorOptions.run es).hex = true ↔ clicks .hexButton es % 2 = 1 := fun es => (C212_options es).2.2
  have key : ∀ after : List Ev, .hexButton ∉ after → ∀ r ∈ (MonitorOptions.run (before ++ after)).rows, r.hex = (MonitorOptions.run (before ++ after)).hex := by
    intro after
    refine C212.history_rec (P := fun after => .hexButton ∉ after → ∀ r ∈ (MonitorOptions.run (before ++ after)).rows, r.hex = (MonitorOptions.run (before ++ after)).hex) ?_ ?_ after
    · intro _ r hr
      rw [List.append_nil, cleared] at hr
      cases hr
    · intro es e ih no r hr
      have ih := ih (fun h => no (by simp [h]))
      have ne : e ≠ .hexButton := fun h => no (by simp [h])
      rw [← List.append_assoc, C212.run_append] at hr ⊢
      generalize MonitorOptions.run (before ++ es) = s at ih hr ⊢
      cases e with
      | hexButton => exact absurd rfl ne
      | clearButton => cases hr
      | reload => cases hr
      | runButton =>
        simp only [Monitor.step] at hr ⊢
        split at hr
        · rename_i h; rw [if_pos h]; exact ih r hr
        · rename_i h; rw [if_neg h]; exact ih r hr
      | hint =>
        simp only [Monitor.step] at hr ⊢
        split at hr
        · rename_i h; rw [if_pos h]; exact ih r hr
        · rename_i h; rw [if_neg h]; exact ih r hr
      | table => exact ih r hr
      | leave => exact ih r hr
      | bytesButton =>
        obtain ⟨r', hr', rfl⟩ := List.mem_map.1 hr
        exact ih r' hr'
      | valuesButton =>
        obtain ⟨r', hr', rfl⟩ := List.mem_map.1 hr
        exact ih r' hr'
      | message =>
        simp only [Monitor.step] at hr ⊢
        split at hr
        · rename_i h
          rw [if_pos h]
          rcases List.mem_append.1 hr with hr | hr
          · exact ih r hr
          · rw [List.mem_singleton.1 hr]
        · rename_i h; rw [if_neg h]; exact ih r hr
  intro r hr
  rw [key after noClick r hr]
  exact hex_eq _

/-- C212. The button to clear removes all rows. -/
theorem C212_clear (history : List Ev) : (MonitorOptions.run (history ++ [.clearButton])).rows = [] := by
  rw [C212.run_append]
  rfl

/-- C212, the code (`MidiMonitor.js:313-318`): after a click on the button for hexadecimal numbers, the rows which are there already keep their decimal numbers. -/
theorem C212_hex_witness : (MonitorOptions.run [.runButton, .message, .hexButton, .message]).rows.map Row.hex = [false, true] ∧
    (MonitorOptions.run [.runButton, .message, .hexButton, .message]).buttons.hex = true := by decide

/-- C212, the code (`MidiMonitor.js:54-57, 106-113`): if the monitor is started with the button, the hint "Click here to start monitoring..." is still there. -/
theorem C212_hint_witness : (MonitorOptions.run [.runButton]).run = true ∧ (MonitorOptions.run [.runButton]).hint = true := by decide

/-- Non-vacuity: messages, options, and a new start in between. -/
example : clicks .bytesButton [.hint, .message, .bytesButton, .reload, .message, .message, .valuesButton] % 2 = 1 ∧
    (MonitorOptions.run [.hint, .message, .bytesButton, .reload, .message, .message, .valuesButton]).rows = [⟨false, true, false⟩, ⟨false, true, false⟩] := by decide

example : (MonitorOptions.run [.hexButton, .runButton]).rows = [] ∧ Ev.hexButton ∉ [Ev.message, .bytesButton, .message] ∧ Quiet .bytesButton ∧
    (MonitorOptions.run ([.hexButton, .runButton] ++ [Ev.message, .bytesButton, .message])).rows = [⟨true, true, true⟩, ⟨true, true, true⟩] := ⟨by decide, by decide, trivial, by decide⟩

end PySwitch.Props
