import Verif.Lemmas.Bridge
import Verif.Spec.Bridge

/-! Lemmas about the text of the file transfer. -/

namespace PySwitch.Lemmas.Bridge
open PySwitch.Bridge PySwitch.Spec.Bridge

theorem codePoints_unit (u : Nat) (s : Str) (h : ¬(0xD800 ≤ u ∧ u < 0xE000)) : codePoints (u :: s) = u :: codePoints s := by
  cases s with
  | nil => simp [codePoints, single, h]
  | cons v s =>
    have : ¬((0xD800 ≤ u ∧ u < 0xDC00) ∧ 0xDC00 ≤ v ∧ v < 0xE000) := by omega
    simp only [codePoints, this, if_false, single, h]

theorem codePoints_pair (h l : Nat) (s : Str) (hh : 0xD800 ≤ h ∧ h < 0xDC00) (hl : 0xDC00 ≤ l ∧ l < 0xE000) :
    codePoints (h :: l :: s) = (0x10000 + (h - 0xD800) * 0x400 + (l - 0xDC00)) :: codePoints s := by
  simp only [codePoints, hh, hl, and_self, if_true]

/-- A code point which is no surrogate. -/
def Scalar (c : Nat) : Prop := c < 0x110000 ∧ ¬(0xD800 ≤ c ∧ c < 0xE000)

theorem utf8_lt (c : Nat) (h : Scalar c) : ∀ b ∈ utf8 c, b < 256 := by
  obtain ⟨h1, h2⟩ := h
  intro b hb
  simp only [utf8] at hb
  split at hb <;> (try split at hb) <;> (try split at hb) <;> simp at hb <;> omega

theorem decode_utf8 (c : Nat) (hc : Scalar c) (rest : Bytes) :
    decodeLoop {} (utf8 c ++ rest) = utf16 c ++ decodeLoop {} rest := by
  obtain ⟨h1, h2⟩ := hc
  simp only [utf8]
  split
  · rename_i h
    have e : utf16 c = [c] := by simp only [utf16, show c < 0x10000 by omega, if_true]
    simp [decodeLoop, decodeByte, decodeFirst, h, e]
  split
  · rename_i h3 h4
    have e : utf16 c = [c] := by simp only [utf16, show c < 0x10000 by omega, if_true]
    have f : decodeFirst (0xC0 + c / 0x40) = ({ needed := 1, cp := c / 0x40 }, []) := by
      simp only [decodeFirst, show ¬0xC0 + c / 0x40 < 0x80 by omega, show 0xC2 ≤ 0xC0 + c / 0x40 ∧ 0xC0 + c / 0x40 ≤ 0xDF by omega,
        if_true, if_false, and_self, show (0xC0 + c / 0x40) % 0x20 = c / 0x40 by omega]
    have g : decodeByte { needed := 1, cp := c / 0x40 } (0x80 + c % 0x40) = ({}, utf16 c) := by
      simp only [decodeByte, show ¬(0x80 + c % 0x40 < 0x80 ∨ 0xBF < 0x80 + c % 0x40) by omega, if_false, if_true,
        Nat.one_ne_zero, show c / 0x40 * 0x40 + (0x80 + c % 0x40) % 0x40 = c by omega]
    simp [decodeLoop, show decodeByte {} (0xC0 + c / 0x40) = _ from f, g]
  split
  · rename_i h3 h4 h5
    have e : utf16 c = [c] := by simp only [utf16, show c < 0x10000 by omega, if_true]
    generalize hlo : (if 0xE0 + c / 0x1000 = 0xE0 then 0xA0 else 0x80) = lo
    generalize hup : (if 0xE0 + c / 0x1000 = 0xED then 0x9F else 0xBF) = up
    have f : decodeFirst (0xE0 + c / 0x1000) = ({ needed := 2, cp := c / 0x1000, lower := lo, upper := up }, []) := by
      simp only [decodeFirst, show ¬0xE0 + c / 0x1000 < 0x80 by omega,
        show ¬(0xC2 ≤ 0xE0 + c / 0x1000 ∧ 0xE0 + c / 0x1000 ≤ 0xDF) by omega,
        show 0xE0 ≤ 0xE0 + c / 0x1000 ∧ 0xE0 + c / 0x1000 ≤ 0xEF by omega,
        if_true, if_false, and_self, show (0xE0 + c / 0x1000) % 0x10 = c / 0x1000 by omega, hlo, hup]
    have g : decodeByte { needed := 2, cp := c / 0x1000, lower := lo, upper := up } (0x80 + c / 0x40 % 0x40) =
        ({ needed := 1, cp := c / 0x40 }, []) := by
      have : ¬(0x80 + c / 0x40 % 0x40 < lo ∨ up < 0x80 + c / 0x40 % 0x40) := by
        rw [← hlo, ← hup]
        split <;> split <;> omega
      simp only [decodeByte, this, if_false]
      simp only [show c / 0x1000 * 0x40 + (0x80 + c / 0x40 % 0x40) % 0x40 = c / 0x40 by omega]
      rfl
    have k : decodeByte { needed := 1, cp := c / 0x40 } (0x80 + c % 0x40) = ({}, utf16 c) := by
      simp only [decodeByte, show ¬(0x80 + c % 0x40 < 0x80 ∨ 0xBF < 0x80 + c % 0x40) by omega, if_false, if_true,
        Nat.one_ne_zero, show c / 0x40 * 0x40 + (0x80 + c % 0x40) % 0x40 = c by omega]
    simp [decodeLoop, show decodeByte {} (0xE0 + c / 0x1000) = _ from f, g, k]
  · rename_i h3 h4 h5
    generalize hlo : (if 0xF0 + c / 0x40000 = 0xF0 then 0x90 else 0x80) = lo
    generalize hup : (if 0xF0 + c / 0x40000 = 0xF4 then 0x8F else 0xBF) = up
    have f : decodeFirst (0xF0 + c / 0x40000) = ({ needed := 3, cp := c / 0x40000, lower := lo, upper := up }, []) := by
      simp only [decodeFirst, show ¬0xF0 + c / 0x40000 < 0x80 by omega,
        show ¬(0xC2 ≤ 0xF0 + c / 0x40000 ∧ 0xF0 + c / 0x40000 ≤ 0xDF) by omega,
        show ¬(0xE0 ≤ 0xF0 + c / 0x40000 ∧ 0xF0 + c / 0x40000 ≤ 0xEF) by omega,
        show 0xF0 ≤ 0xF0 + c / 0x40000 ∧ 0xF0 + c / 0x40000 ≤ 0xF4 by omega,
        if_true, if_false, and_self, show (0xF0 + c / 0x40000) % 0x08 = c / 0x40000 by omega, hlo, hup]
    have g : decodeByte { needed := 3, cp := c / 0x40000, lower := lo, upper := up } (0x80 + c / 0x1000 % 0x40) =
        ({ needed := 2, cp := c / 0x1000 }, []) := by
      have : ¬(0x80 + c / 0x1000 % 0x40 < lo ∨ up < 0x80 + c / 0x1000 % 0x40) := by
        rw [← hlo, ← hup]
        split <;> split <;> omega
      simp only [decodeByte, this, if_false]
      simp only [show c / 0x40000 * 0x40 + (0x80 + c / 0x1000 % 0x40) % 0x40 = c / 0x1000 by omega]
      rfl
    have g' : decodeByte { needed := 2, cp := c / 0x1000 } (0x80 + c / 0x40 % 0x40) = ({ needed := 1, cp := c / 0x40 }, []) := by
      have : ¬(0x80 + c / 0x40 % 0x40 < 0x80 ∨ 0xBF < 0x80 + c / 0x40 % 0x40) := by omega
      simp only [decodeByte, this, if_false]
      simp only [show c / 0x1000 * 0x40 + (0x80 + c / 0x40 % 0x40) % 0x40 = c / 0x40 by omega]
      rfl
    have k : decodeByte { needed := 1, cp := c / 0x40 } (0x80 + c % 0x40) = ({}, utf16 c) := by
      simp only [decodeByte, show ¬(0x80 + c % 0x40 < 0x80 ∨ 0xBF < 0x80 + c % 0x40) by omega, if_false, if_true,
        Nat.one_ne_zero, show c / 0x40 * 0x40 + (0x80 + c % 0x40) % 0x40 = c by omega]
    simp [decodeLoop, show decodeByte {} (0xF0 + c / 0x40000) = _ from f, g, g', k]

theorem utf16_pair (h l : Nat) (hh : 0xD800 ≤ h ∧ h < 0xDC00) (hl : 0xDC00 ≤ l ∧ l < 0xE000) :
    utf16 (0x10000 + (h - 0xD800) * 0x400 + (l - 0xDC00)) = [h, l] := by
  have : ¬0x10000 + (h - 0xD800) * 0x400 + (l - 0xDC00) < 0x10000 := by omega
  have e1 : 0xD800 + (0x10000 + (h - 0xD800) * 0x400 + (l - 0xDC00) - 0x10000) / 0x400 = h := by omega
  have e2 : 0xDC00 + (0x10000 + (h - 0xD800) * 0x400 + (l - 0xDC00) - 0x10000) % 0x400 = l := by omega
  simp only [utf16, this, if_false, e1, e2]

theorem decode_encode {s : Str} (h : WellFormed s) : decodeLoop {} (encodeText s) = s ∧ ∀ b ∈ encodeText s, b < 256 := by
  induction h with
  | nil => simp [encodeText, codePoints, decodeLoop]
  | unit u s h1 h2 _ ih =>
    simp only [encodeText, codePoints_unit u s h2, List.flatMap_cons]
    have hs : Scalar u := ⟨by omega, h2⟩
    have e : utf16 u = [u] := by simp only [utf16, h1, if_true]
    refine ⟨?_, ?_⟩
    · rw [decode_utf8 u hs, e]
      exact congrArg (u :: ·) ih.1
    · intro b hb
      rcases List.mem_append.1 hb with hb | hb
      · exact utf8_lt u hs b hb
      · exact ih.2 b hb
  | pair h l s hh hl _ ih =>
    simp only [encodeText, codePoints_pair h l s hh hl, List.flatMap_cons]
    have hs : Scalar (0x10000 + (h - 0xD800) * 0x400 + (l - 0xDC00)) := ⟨by omega, by omega⟩
    refine ⟨?_, ?_⟩
    · rw [decode_utf8 _ hs, utf16_pair h l hh hl]
      exact congrArg (fun t => h :: l :: t) ih.1
    · intro b hb
      rcases List.mem_append.1 hb with hb | hb
      · exact utf8_lt _ hs b hb
      · exact ih.2 b hb

/-- A byte order mark at the start of the bytes is one at the start of the text. -/
theorem no_mark {s : Str} (h : Sendable s) : [0xEF, 0xBB, 0xBF].isPrefixOf (encodeText s) = false := by
  obtain ⟨h, hm⟩ := h
  cases h with
  | nil => rfl
  | unit u s h1 h2 _ =>
    simp only [encodeText, codePoints_unit u s h2, List.flatMap_cons, utf8]
    simp at hm
    rw [Bool.eq_false_iff]
    intro hp
    split at hp
    · simp at hp; omega
    · split at hp
      · simp at hp; omega
      · simp at hp
        omega
  | pair h l s hh hl _ =>
    simp only [encodeText, codePoints_pair h l s hh hl, List.flatMap_cons, utf8]
    rw [Bool.eq_false_iff]
    intro hp
    rw [if_neg (by omega), if_neg (by omega), if_neg (by omega)] at hp
    simp at hp
    omega

theorem text_back {s : Str} (h : Sendable s) : bytes2string (string2bytes s) = s := by
  rw [bytes2string, string2bytes, unpack_pack _ (decode_encode h.1).2, decodeText, no_mark h]
  simpa using (decode_encode h.1).1

end PySwitch.Lemmas.Bridge
