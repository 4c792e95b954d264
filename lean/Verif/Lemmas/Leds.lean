import Verif.Spec.Leds
namespace PySwitch.Leds
open PySwitch.Leds.Spec

theorem indexOf_eq_some (a : Nat) (l : List Nat) (hn : l.Nodup) (i : Nat) (h : l[i]? = some a) : indexOf a l = some i := by
  induction l generalizing i with
  | nil => simp at h
  | cons b l ih =>
    rw [List.nodup_cons] at hn
    cases i with
    | zero =>
      simp only [List.getElem?_cons_zero, Option.some.injEq] at h
      simp [indexOf, h]
    | succ i =>
      simp only [List.getElem?_cons_succ] at h
      have hne : b ≠ a := by
        rintro rfl
        exact hn.1 (List.mem_of_getElem? h)
      simp [indexOf, hne, ih hn.2 i h]

theorem segments_ok (A : Actions) (sw : Switch) (hp : sw.pixels ≠ []) (hn : sw.actions.Nodup) (i a : Nat)
    (h : (showing A sw)[i]? = some a) :
    segments A sw a = .ok (if (showing A sw).length = 1 then List.range sw.pixels.length
      else if (showing A sw).length < sw.pixels.length then
        (if i = 0 then List.range (sw.pixels.length - (showing A sw).length + 1)
          else [sw.pixels.length - (showing A sw).length + 1 + i - 1])
      else if i < sw.pixels.length then [i] else []) := by
  have hm := List.mem_of_getElem? h
  have hm' := (List.mem_filter.1 hm).2
  simp only [Bool.and_eq_true] at hm'
  have hi : indexOf a (sw.actions.filter (fun b => A.usesLeds b && A.enabled b)) = some i :=
    indexOf_eq_some a _ (hn.filter _) i h
  unfold segments
  rw [if_neg (by simp [hp, hm'.1, hm'.2])]
  simp only [hi]
  rw [show sw.actions.filter (fun b => A.usesLeds b && A.enabled b) = showing A sw from rfl]
  generalize (showing A sw).length = n
  by_cases h1 : n = 1
  · rw [if_pos h1, if_pos h1]
  · rw [if_neg h1, if_neg h1]
    by_cases h2 : n < sw.pixels.length
    · rw [if_pos h2, if_pos h2]
      by_cases h3 : i = 0
      · rw [if_pos h3, if_pos h3]
      · rw [if_neg h3, if_neg h3]
    · rw [if_neg h2, if_neg h2]
      by_cases h3 : i < sw.pixels.length
      · rw [if_pos h3, if_pos h3]
      · rw [if_neg h3, if_neg h3]

/-- What the loop writes. -/
theorem writeLoop_spec (sw : Switch) (bs : List Rat) (hc : sw.colors.length = sw.pixels.length)
    (hb : bs.length = sw.pixels.length) (hn : sw.pixels.Nodup) (n i : Nat) (leds : Strip)
    (hin : i + n = sw.pixels.length) (hs : ∀ p ∈ sw.pixels, p < leds.length) :
    ∃ leds', writeLoop sw bs n i leds = (leds', none) ∧ leds'.length = leds.length ∧
      (∀ q, (∀ j, i ≤ j → sw.pixels[j]? ≠ some q) → leds'[q]? = leds[q]?) ∧
      (∀ (j q : Nat) (c : Color) (b : Rat), i ≤ j → sw.pixels[j]? = some q → sw.colors[j]? = some c → bs[j]? = some b →
        leds'[q]? = some (c.scale b)) := by
  induction n generalizing i leds with
  | zero =>
    refine ⟨leds, rfl, rfl, fun _ _ => rfl, ?_⟩
    intro j q c b hj hq
    have := (List.getElem?_eq_some_iff.1 hq).1
    omega
  | succ n ih =>
    have h1 : i < sw.pixels.length := by omega
    have e1 := List.getElem?_eq_getElem h1
    have e2 := List.getElem?_eq_getElem (l := sw.colors) (i := i) (by omega)
    have e3 := List.getElem?_eq_getElem (l := bs) (i := i) (by omega)
    simp only [writeLoop, e1, e2, e3]
    have hlt : sw.pixels[i] < leds.length := hs _ (List.getElem_mem h1)
    rw [if_pos hlt]
    generalize hc' : sw.colors[i] = ci at *
    generalize hb' : bs[i] = bi at *
    obtain ⟨leds', a1, a2, a3, a4⟩ := ih (i + 1) (leds.set sw.pixels[i] (ci.scale bi)) (by omega) (by simpa using hs)
    refine ⟨leds', a1, by rw [a2]; simp, ?_, ?_⟩
    · intro q hq
      rw [a3 q (fun j hj => hq j (by omega))]
      have : sw.pixels[i] ≠ q := by
        have := hq i (Nat.le_refl _)
        rw [e1] at this
        simpa using this
      rw [List.getElem?_set_ne this]
    · intro j q c b hj hq hcj hbj
      by_cases hji : j = i
      · subst hji
        rw [e1] at hq
        rw [e2] at hcj
        rw [e3] at hbj
        simp only [Option.some.injEq] at hq hcj hbj
        subst hcj hbj
        rw [a3 q ?_, ← hq, List.getElem?_set_self hlt]
        intro k hk hkq
        have hk' := List.getElem?_eq_some_iff.1 hkq
        have := (List.getElem_inj (i := k) (j := j) (h₀ := hk'.1) (h₁ := h1) hn).1 (hk'.2.trans hq.symm)
        omega
      · exact a4 j q c b (by omega) hq hcj hbj

theorem pyInt_floor (c : Int) (b : Rat) (hc : 0 ≤ c) (hb : 0 ≤ b) : pyInt (c * b) = (c * b : Rat).floor := by
  unfold pyInt
  rw [if_pos (Rat.mul_nonneg (by exact_mod_cast hc) hb)]

theorem floor_range (c : Int) (b : Rat) (hc : 0 ≤ c) (hb : 0 ≤ b) (hb' : b ≤ 1) :
    0 ≤ (c * b : Rat).floor ∧ (c * b : Rat).floor ≤ c := by
  have hcr : (0 : Rat) ≤ c := by exact_mod_cast hc
  constructor
  · rw [Rat.le_floor_iff]
    exact Rat.mul_nonneg hcr hb
  · have h1 : (c * b : Rat) ≤ c := by
      have := Rat.mul_le_mul_of_nonneg_left hb' hcr
      rwa [Rat.mul_one] at this
    have := Rat.floor_monotone h1
    rwa [Rat.floor_intCast] at this

end PySwitch.Leds
