import Verif.Spec.DeviceType
import Verif.Lemmas.Checks
/-!
C186: The web application shows the device the configuration is for. C187: The preview of the display fits into its area.
-/
namespace PySwitch.Props
open PySwitch.DeviceType PySwitch.DeviceType.Spec

namespace C186

theorem infix_line (p l r : List Char) (hp : '\n' ∉ p) (h : p <:+: l ++ '\n' :: r) : p <:+: l ∨ p <:+: r := by
  obtain ⟨s, t, h⟩ := h
  rw [List.append_assoc] at h
  rcases List.append_eq_append_iff.mp h with ⟨a, rfl, h2⟩ | ⟨a, rfl, h2⟩
  · rcases List.append_eq_append_iff.mp h2 with ⟨b, rfl, _⟩ | ⟨b, rfl, h3⟩
    · exact .inl ⟨s, b, by simp⟩
    · cases b with
      | nil => exact .inl ⟨s, [], by simp⟩
      | cons c b =>
        have : c = '\n' := (List.cons.inj h3).1.symm
        subst this
        exact absurd (List.mem_append_right a List.mem_cons_self) hp
  · cases a with
    | nil =>
      cases p with
      | nil => exact .inl (List.nil_infix)
      | cons c p =>
        have : c = '\n' := (List.cons.inj h2).1.symm
        subst this
        exact absurd List.mem_cons_self hp
    | cons c a =>
      have h3 := (List.cons.inj h2).2
      exact .inr ⟨a, t, by rw [List.append_assoc]; exact h3.symm⟩

theorem infix_file (p : List Char) (hp : '\n' ∉ p) (hn : p ≠ []) (lines : List (List Char)) : p <:+: fileOf lines ↔ ∃ l ∈ lines, p <:+: l := by
  induction lines with
  | nil =>
    constructor
    · intro h; exact absurd (List.infix_nil.mp h) hn
    · rintro ⟨l, hl, _⟩; cases hl
  | cons l ls ih =>
    constructor
    · intro h
      rcases infix_line p l (fileOf ls) hp h with h | h
      · exact ⟨l, List.mem_cons_self, h⟩
      · obtain ⟨m, hm, h⟩ := ih.mp h
        exact ⟨m, List.mem_cons_of_mem _ hm, h⟩
    · rintro ⟨m, hm, h⟩
      rcases List.mem_cons.mp hm with rfl | hm
      · exact h.trans (List.prefix_append _ _).isInfix
      · have := ih.mpr ⟨m, hm, h⟩
        exact this.trans ((List.suffix_cons _ _).trans (List.suffix_append _ _)).isInfix

theorem no_newline : ∀ d : Device, '\n' ∉ d.importPath := by intro d; cases d <;> decide +kernel
theorem not_empty : ∀ d : Device, d.importPath ≠ [] := by intro d; cases d <;> decide +kernel

theorem includes_file (d : Device) (lines : List (List Char)) : Editor.Checks.includes d.importPath (fileOf lines) = true ↔ ∃ l ∈ lines, Mentions l d := by
  rw [Lemmas.Checks.includes_iff, infix_file _ (no_newline d) (not_empty d)]
  rfl

theorem imports_mentions {l : List Char} {d : Device} (h : Imports l d) : Mentions l d := by
  obtain ⟨n, rfl⟩ := h
  exact ⟨"from ".toList, " import ".toList ++ n, by simp⟩

end C186

/-- If a line of the configuration imports the inputs of a device, and no line mentions the module of another device, then the web application takes this device. Missing: configurations which mention
other devices, as in comments. -/
theorem C186_device_partial (lines : List (List Char)) (d : Device) (h : ∃ l ∈ lines, Imports l d) (ho : ∀ e, e ≠ d → ∀ l ∈ lines, ¬ Mentions l e) :
    getInstance (fileOf lines) = d := by
  have hd : Editor.Checks.includes d.importPath (fileOf lines) = true := by
    obtain ⟨l, hl, hi⟩ := h
    exact (C186.includes_file d lines).mpr ⟨l, hl, C186.imports_mentions hi⟩
  have he : ∀ e, e ≠ d → Editor.Checks.includes e.importPath (fileOf lines) = false := by
    intro e hne
    rw [← Bool.not_eq_true, C186.includes_file]
    rintro ⟨l, hl, hm⟩
    exact ho e hne l hl hm
  unfold getInstance
  cases d with
  | nano4 => rw [if_pos hd]
  | mini6 => rw [he .nano4 (by decide), hd]; rfl
  | captain10 => rw [he .nano4 (by decide), he .mini6 (by decide), hd]; rfl

example : (∃ l ∈ ["Inputs = []".toList, "from pyswitch.hardware.devices.pa_midicaptain_mini_6 import *".toList], Imports l .mini6) ∧
    ∀ e, e ≠ Device.mini6 → ∀ l ∈ ["Inputs = []".toList, "from pyswitch.hardware.devices.pa_midicaptain_mini_6 import *".toList], ¬ Mentions l e := by
  refine ⟨⟨_, .tail _ (.head _), ['*'], by decide +kernel⟩, fun e he l hl hm => ?_⟩
  have hm : Editor.Checks.includes e.importPath l = true := (Lemmas.Checks.includes_iff _ _).mpr hm
  revert hm
  simp only [List.mem_cons, List.not_mem_nil, or_false] at hl
  rcases hl with rfl | rfl <;> cases e <;> first | exact absurd rfl he | decide +kernel

/-- A configuration which mentions no device is taken for the largest one. -/
theorem C186_default (lines : List (List Char)) (h : ∀ e, ∀ l ∈ lines, ¬ Mentions l e) : getInstance (fileOf lines) = .captain10 := by
  have he : ∀ e : Device, Editor.Checks.includes e.importPath (fileOf lines) = false := by
    intro e
    rw [← Bool.not_eq_true, C186.includes_file]
    rintro ⟨l, hl, hm⟩
    exact h e l hl hm
  simp [getInstance, he]

example : ∀ e, ∀ l ∈ ["Inputs = []".toList, "# pyswitch.hardware.devices.other".toList], ¬ Mentions l e := by
  intro e l hl hm
  have hm : Editor.Checks.includes e.importPath l = true := (Lemmas.Checks.includes_iff _ _).mpr hm
  revert hm
  simp only [List.mem_cons, List.not_mem_nil, or_false] at hl
  rcases hl with rfl | rfl <;> cases e <;> decide +kernel

/-- A configuration for one device with a comment about another one is taken for the other one. -/
theorem C186_comment_witness : ∃ lines : List (List Char), (∃ l ∈ lines, Imports l .captain10) ∧ (∀ e, e ≠ Device.captain10 → ∀ l ∈ lines, ¬ Imports l e) ∧
    getInstance (fileOf lines) = .nano4 := by
  refine ⟨["# Made from pyswitch.hardware.devices.pa_midicaptain_nano_4".toList, "from pyswitch.hardware.devices.pa_midicaptain_10 import *".toList],
    ⟨_, .tail _ (.head _), ['*'], by decide +kernel⟩, ?_, by decide +kernel⟩
  rintro e he l hl ⟨n, hn⟩
  simp only [List.mem_cons, List.not_mem_nil, or_false] at hl
  have hp : ("from ".toList ++ e.importPath).isPrefixOf l = true := by
    rw [List.isPrefixOf_iff_prefix, hn, List.append_assoc ("from ".toList ++ e.importPath)]
    exact List.prefix_append _ _
  revert hp
  rcases hl with rfl | rfl <;> cases e <;> first | exact absurd rfl he | decide +kernel

/-- The preview of the display never leaves the area it is in, and fills it in one direction, for all sizes of displays and areas. -/
theorem C187_fits (w h aw ah : Nat) :
    (Fits ((scaleFactor w h aw ah).times w) aw ∧ Fits ((scaleFactor w h aw ah).times h) ah) ∧
    (Fills ((scaleFactor w h aw ah).times w) aw ∨ Fills ((scaleFactor w h aw ah).times h) ah) := by
  unfold scaleFactor
  split
  · rename_i hg
    simp only [Factor.times, Fits, Fills]
    exact ⟨⟨by omega, by rw [Nat.mul_comm]; exact Nat.le_refl _⟩, .inr (Nat.mul_comm _ _)⟩
  · rename_i hg
    simp only [Factor.times, Fits, Fills]
    refine ⟨⟨by rw [Nat.mul_comm]; exact Nat.le_refl _, ?_⟩, .inl (Nat.mul_comm _ _)⟩
    rw [Nat.mul_comm h aw, Nat.mul_comm ah w]
    omega

example : scaleFactor 240 240 600 400 = ⟨400, 240⟩ ∧ scaleFactor 240 240 300 400 = ⟨300, 240⟩ := by decide

/-- Both directions have the same factor, which is positive if the area and the display are not empty: the preview is not distorted. -/
theorem C187_shape (w h aw ah : Nat) : ((scaleFactor w h aw ah).times w).num * h = ((scaleFactor w h aw ah).times h).num * w ∧
    ((scaleFactor w h aw ah).times w).den = ((scaleFactor w h aw ah).times h).den ∧
    (0 < w → 0 < h → 0 < aw → 0 < ah → 0 < (scaleFactor w h aw ah).num ∧ 0 < (scaleFactor w h aw ah).den) := by
  refine ⟨?_, rfl, fun hw hh haw hah => ?_⟩
  · simp only [Factor.times]
    rw [Nat.mul_right_comm, Nat.mul_comm w h]
    exact Nat.mul_right_comm h w _
  · unfold scaleFactor
    split
    · exact ⟨hah, hh⟩
    · exact ⟨haw, hw⟩

end PySwitch.Props
