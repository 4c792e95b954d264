import Verif.Spec.VirtualPanel
import Verif.Lemmas.PropertiesNames
/-!
C202: the controls of the emulated device show its state, and set what the user enters.
-/
namespace PySwitch.Props
open PySwitch.VirtualPanel PySwitch.VirtualPanel.Spec

namespace C202

theorem callback_iff (k : Kind) (v : Nat) : k.callback v = true ↔ isOn k v := by
  cases k <;> simp [Kind.callback, isOn]

theorem value_iff (k : Kind) (c : Bool) : isOn k (k.value c) ↔ c = true := by
  cases k <;> cases c <;> simp [Kind.value, isOn]

theorem initial_iff (k : Kind) (v : Nat) (h : k = .fixed → v ≤ 1) : k.initial v = true ↔ isOn k v := by
  cases k with
  | slot => simp [Kind.initial, isOn]
  | tuner => simp [Kind.initial, isOn]
  | fixed =>
    have := h rfl
    simp only [Kind.initial, isOn, beq_iff_eq]
    omega

theorem step_iff (k : Kind) (b : Box) (h : b.checked = true ↔ isOn k b.value) (e : BoxEvent) : (b.step k e).checked = true ↔ isOn k (b.step k e).value := by
  cases e with
  | message v =>
    simp only [Box.step, Box.setValue]
    split
    · exact h
    · exact callback_iff k v
  | click =>
    simp only [Box.step, Box.setValue]
    split
    · rename_i hv
      have hv : b.value = k.value (!b.checked) := by simpa using hv
      show (!b.checked) = true ↔ isOn k b.value
      rw [hv]
      exact (value_iff k (!b.checked)).symm
    · exact callback_iff k _

end C202
open C202

/-- C202: whatever messages arrive and however often it is clicked, the checkbox of an effect or of the tuner is checked exactly when the effect or the tuner of the emulated device is on. Fixed effects are off or on at the beginning, that is 0 or 1. -/
theorem C202_checkbox (k : Kind) (start : Nat) (startFixed : k = .fixed → start ≤ 1) (history : List BoxEvent) :
    (history.foldl (Box.step k) (.init k start)).checked = true ↔ isOn k (history.foldl (Box.step k) (.init k start)).value := by
  suffices ∀ b : Box, (b.checked = true ↔ isOn k b.value) → ((history.foldl (Box.step k) b).checked = true ↔ isOn k (history.foldl (Box.step k) b).value) from
    this _ (initial_iff k start startFixed)
  induction history with
  | nil => exact fun b h => h
  | cons e es ih => exact fun b h => ih _ (step_iff k b h e)

example : ([BoxEvent.message 5, .click, .click].foldl (Box.step .slot) (.init .slot 0)) = ⟨1, true⟩ ∧ ([BoxEvent.click, .click].foldl (Box.step .tuner) (.init .tuner 0)) = ⟨3, false⟩ := by decide

/-- C202: after any history, a click switches the effect or the tuner: on if it was off, off if it was on. -/
theorem C202_click (k : Kind) (start : Nat) (startFixed : k = .fixed → start ≤ 1) (history : List BoxEvent) :
    isOn k ((history.foldl (Box.step k) (.init k start)).step k .click).value ↔ ¬ isOn k (history.foldl (Box.step k) (.init k start)).value := by
  have h := C202_checkbox k start startFixed history
  generalize history.foldl (Box.step k) (.init k start) = b at *
  rw [← h]
  have hv : (b.step k .click).value = k.value (!b.checked) := by
    simp only [Box.step, Box.setValue]
    split
    · rename_i e; simpa using e
    · rfl
  rw [hv, value_iff]
  cases b.checked <;> simp

/-- C202: a message sets the state. -/
theorem C202_message (k : Kind) (b : Box) (v : Nat) : (b.step k (.message v)).value = v := by
  simp only [Box.step, Box.setValue]
  split
  · rename_i e; simpa using e
  · rfl

/-- C202, partial: typing the name of a note with a capital or a small letter, without accidental or with a sharp, sets the tuner to that note. Missing: flats, see the witness. -/
theorem C202_note_partial (s : Note) (text : List Char) (l : Letter) (a : Accidental) (named : Names text l a) (noFlat : a ≠ .flat) :
    (s.step (.type text)).value = note l a := by
  have : detectNote text = note l a := by
    cases a with
    | flat => exact absurd rfl noFlat
    | natural => rcases named with rfl | rfl <;> cases l <;> decide +kernel
    | sharp => rcases named with rfl | rfl <;> cases l <;> decide +kernel
  simp only [Note.step, Note.setValue, this]
  split
  · rename_i e; simpa using e
  · rfl

example : Names "f#".toList .F .sharp ∧ note .F .sharp = 6 := ⟨.inr rfl, rfl⟩

/-- C202: typing a number from 1 on sets the tuner to the note of that number, in any octave. -/
theorem C202_number (s : Note) (n : Nat) (positive : n ≠ 0) : (s.step (.type (Nat.toDigits 10 n))).value = n := by
  have hp := PySwitch.Properties.parseInt_nat n
  rw [PySwitch.Properties.intText_nat] at hp
  have : detectNote (Nat.toDigits 10 n) = n := by
    unfold detectNote
    rw [hp]
    simp [positive]
  simp only [Note.step, Note.setValue, this]
  split
  · rename_i e; simpa using e
  · rfl

/-- C202: whenever the tuner gets another note from a message, the name shown is that of the note, in whatever octave. -/
theorem C202_shown (s : Note) (v : Nat) (new : s.value ≠ v) : ∃ l a, note l a = v % 12 ∧ (s.step (.message v)).text = some (l.char :: a.text) := by
  have h : (s.step (.message v)).text = nameOf v := by
    simp only [Note.step, Note.setValue]
    rw [if_neg (by simpa using new)]
  have h2 : nameOf v = names[v % 12]? := by
    unfold nameOf
    have : ((v : Int).tmod 12) = ((v % 12 : Nat) : Int) := by
      rw [Int.tmod_eq_emod_of_nonneg (by omega)]; simp
    rw [this, if_neg (by omega), Int.toNat_natCast]
  rw [h, h2]
  have hlt : v % 12 < 12 := Nat.mod_lt _ (by decide)
  have all : ∀ i : Fin 12, ∃ l a, note l a = i.val ∧ names[i.val]? = some (Letter.char l :: Accidental.text a) := by
    intro i
    match i with
    | 0 => exact ⟨.C, .natural, rfl, rfl⟩
    | 1 => exact ⟨.D, .flat, rfl, rfl⟩
    | 2 => exact ⟨.D, .natural, rfl, rfl⟩
    | 3 => exact ⟨.E, .flat, rfl, rfl⟩
    | 4 => exact ⟨.E, .natural, rfl, rfl⟩
    | 5 => exact ⟨.F, .natural, rfl, rfl⟩
    | 6 => exact ⟨.G, .flat, rfl, rfl⟩
    | 7 => exact ⟨.G, .natural, rfl, rfl⟩
    | 8 => exact ⟨.A, .flat, rfl, rfl⟩
    | 9 => exact ⟨.A, .natural, rfl, rfl⟩
    | 10 => exact ⟨.B, .flat, rfl, rfl⟩
    | 11 => exact ⟨.B, .natural, rfl, rfl⟩
  exact all ⟨v % 12, hlt⟩

example : ((Note.init 0 0).step (.message 63)).text = some "Eb".toList := by decide +kernel

/-- C202: each flat, also one which the input itself has shown, sets the tuner to C. -/
theorem C202_flat_witness (s : Note) (text : List Char) (l : Letter) (named : Names text l .flat) : (s.step (.type text)).value = 0 ∧ note l .flat ≠ 0 := by
  have : detectNote text = 0 := by rcases named with rfl | rfl <;> cases l <;> decide +kernel
  constructor
  · simp only [Note.step, Note.setValue, this]
    split
    · rename_i e; simpa using e
    · rfl
  · cases l <;> decide

/-- C202: the input keeps a text which does not change the note: any text that is no note stays there while the tuner is at C. -/
theorem C202_stale_witness : ((Note.init 0 0).step (.type "Eb".toList)).text = some "Eb".toList ∧ ((Note.init 0 0).step (.type "Eb".toList)).value = 0 := by decide +kernel

/-- C202: the checkbox for morphing by rig buttons is not checked at the beginning, although the function is on; the first click leaves it on. -/
theorem C202_morph_witness : (Morph.init true).active = true ∧ (Morph.init true).checked = false ∧ (Morph.init true).click.active = true := ⟨rfl, rfl, rfl⟩

/-- C202: from the first click on, this checkbox shows the state. -/
theorem C202_morph (active : Bool) (clicks : Nat) : ((List.range (clicks + 1)).foldl (fun m _ => m.click) (Morph.init active)).checked = ((List.range (clicks + 1)).foldl (fun m _ => m.click) (Morph.init active)).active := by
  rw [List.range_succ, List.foldl_append]
  rfl

end PySwitch.Props
