import Verif.Spec.Mapping
import Verif.Spec.Wire
import Verif.Lemmas.Basic
namespace PySwitch.Mapping
open PySwitch.Wire PySwitch.Mapping.Spec

theorem slice26_iff (d d' : List Nat) : slice d 2 6 = slice d' 2 6 ↔ address d = address d' := by
  have key : ∀ d : List Nat, slice d 2 6 = [d[2]?, d[3]?, d[4]?, d[5]?].filterMap id := by
    intro d
    match d with
    | [] => rfl
    | [_] => rfl
    | [_, _] => rfl
    | [_, _, _] => rfl
    | [_, _, _, _] => rfl
    | [_, _, _, _, _] => rfl
    | _ :: _ :: _ :: _ :: _ :: _ :: _ => rfl
  constructor
  · intro h
    have key2 : ∀ d : List Nat, address d = [(slice d 2 6)[0]?, (slice d 2 6)[1]?, (slice d 2 6)[2]?,
        (slice d 2 6)[3]?] := by
      intro d
      simp [slice, address, List.getElem?_drop]
    rw [key2, key2, h]
  · intro h
    simp only [address, List.cons.injEq] at h
    rw [key, key, h.1, h.2.1, h.2.2.1, h.2.2.2.1]

theorem padTo8_eq (d : List Nat) : padTo8 d = d ++ List.replicate (8 - d.length) 0 := by
  fun_induction padTo8 d with
  | case1 d h ih =>
    rw [ih]
    obtain ⟨k, hk⟩ : ∃ k, 8 - d.length = k + 1 := ⟨7 - d.length, by omega⟩
    have : 8 - (d ++ [0]).length = k := by simp; omega
    rw [this, hk, List.replicate_succ]
    simp
  | case2 d h =>
    have : 8 - d.length = 0 := by omega
    simp [this]

theorem fromEnd_two (f : List Nat) (a b : Nat) : fromEnd (f ++ [a, b]) 2 = .ok a := by
  simp [fromEnd]

theorem fromEnd_one (f : List Nat) (a b : Nat) : fromEnd (f ++ [a, b]) 1 = .ok b := by
  simp only [fromEnd]
  rw [if_neg (by simp)]
  have : (f ++ [a, b])[(f ++ [a, b]).length - 1]? = some b := by
    rw [List.getElem?_append_right (by simp)]
    simp
  rw [this]

theorem split_last_two (l : List Nat) (h : 2 ≤ l.length) : ∃ f a b, l = f ++ [a, b] := by
  refine ⟨l.take (l.length - 2), l[l.length - 2], l[l.length - 1], ?_⟩
  have e := (List.take_append_drop (l.length - 2) l).symm
  have : l.drop (l.length - 2) = [l[l.length - 2], l[l.length - 1]] := by
    apply List.ext_getElem
    · simp; omega
    · intro i h1 h2
      simp at h2
      have : i = 0 ∨ i = 1 := by omega
      rcases this with rfl | rfl
      · simp
      · simp
        congr 1
        omega
  rw [this] at e
  exact e

/-- The parser on a SysEx answer. -/
theorem parseAgainst_sysex (t : ParType) (man data rdata : List Nat) :
    parseAgainst t (.sysex man data) (some (.sysex man rdata)) =
      if address data = address rdata then
        match t with
        | .string => .ok (some (.str (slice data 6 (data.length - 1))))
        | .numeric =>
          match fromEnd data 2, fromEnd data 1 with
          | .ok a, .ok b => .ok (some (.num (a * 128 + b)))
          | .error e, _ => .error e
          | _, .error e => .error e
      else .ok none := by
  simp only [parseAgainst]
  by_cases h : address data = address rdata
  · have h' := (slice26_iff data rdata).2 h
    rw [if_neg (by simp), if_neg (by simp [h']), if_pos h]
    rfl
  · have h' : slice data 2 6 ≠ slice rdata 2 6 := fun e => h ((slice26_iff data rdata).1 e)
    rw [if_neg (by simp), if_pos h', if_neg h]

/-- A message with the same address as a template with an address has at least three data bytes. -/
theorem length_of_address (d d' : List Nat) (h : address d = address d') (hl : 3 ≤ d'.length) : 3 ≤ d.length := by
  simp only [address, List.cons.injEq] at h
  have h2 := h.1
  have : d'[2]? = some d'[2] := List.getElem?_eq_getElem (by omega)
  rw [this] at h2
  obtain ⟨hx, -⟩ := List.getElem?_eq_some_iff.1 h2
  omega

end PySwitch.Mapping
