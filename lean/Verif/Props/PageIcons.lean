import Verif.Model.PageIcons
/-!
C180: the colours of the page marks in the editor.
-/
namespace PySwitch.Props
open PySwitch.PageIcons

namespace C180

/-- The colours are given in turn, and each key has one. -/
structure Ok (s : State) : Prop where
  nodup : (s.colors.map (·.1)).Nodup
  turn : s.colors.map (·.2) = (List.range s.colors.length).map (· % 5)
  next : s.next = s.colors.length % 5

theorem ok_start : Ok {} := ⟨.nil, rfl, rfl⟩

theorem find_none {s : State} {k : Text} (h : s.find k = none) : k ∉ s.colors.map (·.1) := by
  simp only [State.find, Option.map_eq_none_iff, List.find?_eq_none] at h
  intro hm
  obtain ⟨e, he, rfl⟩ := List.mem_map.1 hm
  exact h e he (by simp)

theorem ok_color {s : State} (h : Ok s) (a b : Text) : Ok (s.color a b).1 := by
  unfold State.color
  cases hf : s.find (key a b) with
  | some c => exact h
  | none =>
    refine ⟨?_, ?_, ?_⟩
    · simp only [List.map_append, List.map_cons, List.map_nil]
      rw [List.nodup_append]
      refine ⟨h.nodup, by simp, ?_⟩
      intro x hx y hy
      rw [List.mem_singleton.1 hy]
      exact fun e => find_none hf (e ▸ hx)
    · simp only [List.map_append, List.map_cons, List.map_nil, List.length_append, List.length_cons, List.length_nil, Nat.zero_add]
      rw [List.range_succ, List.map_append, h.turn, h.next]; rfl
    · simp only [List.length_append, List.length_cons, List.length_nil, Nat.zero_add]
      have := h.next
      split <;> omega

theorem find_color (s : State) (a b : Text) : (s.color a b).1.find (key a b) = some (s.color a b).2 := by
  unfold State.color
  cases hf : s.find (key a b) with
  | some c => exact hf
  | none =>
    simp only [State.find, Option.map_eq_none_iff] at hf
    simp [State.find, List.find?_append, hf]

theorem find_keep {s : State} {k : Text} {c : Nat} (h : s.find k = some c) (a b : Text) : (s.color a b).1.find k = some c := by
  unfold State.color
  cases hf : s.find (key a b) with
  | some c => exact h
  | none =>
    simp only [State.find, Option.map_eq_some_iff] at h ⊢
    obtain ⟨e, he, hc⟩ := h
    exact ⟨e, by rw [List.find?_append, he]; rfl, hc⟩

theorem marks_find (as : List (Text × Text)) (s : State) (k : Text) (c : Nat) (h : s.find k = some c) : (s.marks as).1.find k = some c := by
  induction as generalizing s with
  | nil => exact h
  | cons a as ih => exact ih _ (find_keep h a.1 a.2)

/-- Each mark has the colour of its key at the end. -/
theorem marks_get (as : List (Text × Text)) (s : State) (i : Nat) (a : Text × Text) (c : Nat) (ha : as[i]? = some a) (hc : (s.marks as).2[i]? = some c) :
    (s.marks as).1.find (key a.1 a.2) = some c := by
  induction as generalizing s i with
  | nil => cases ha
  | cons b as ih =>
    cases i with
    | zero =>
      obtain rfl := Option.some.inj ha
      obtain rfl := Option.some.inj hc
      exact marks_find as _ _ _ (find_color s b.1 b.2)
    | succ i => exact ih _ i ha hc

theorem ok_marks (as : List (Text × Text)) (s : State) (h : Ok s) : Ok (s.marks as).1 := by
  induction as generalizing s with
  | nil => exact h
  | cons a as ih => exact ih _ (ok_color h a.1 a.2)

theorem keys_color (s : State) (a b : Text) : ∀ k ∈ (s.color a b).1.colors.map (·.1), k ∈ s.colors.map (·.1) ∨ k = key a b := by
  unfold State.color
  cases hf : s.find (key a b) with
  | some c => exact fun k hk => .inl hk
  | none => intro k hk; simpa using hk

theorem keys_marks (as : List (Text × Text)) (s : State) :
    ∀ k ∈ (s.marks as).1.colors.map (·.1), k ∈ s.colors.map (·.1) ∨ ∃ a ∈ as, k = key a.1 a.2 := by
  induction as generalizing s with
  | nil => exact fun k hk => .inl hk
  | cons a as ih =>
    intro k hk
    rcases ih _ k hk with h | ⟨b, hb, h⟩
    · rcases keys_color s a.1 a.2 k h with h | h
      · exact .inl h
      · exact .inr ⟨a, by simp, h⟩
    · exact .inr ⟨b, by simp [hb], h⟩

theorem find_index {s : State} (h : Ok s) {k : Text} {c : Nat} (hf : s.find k = some c) :
    ∃ i, (s.colors.map (·.1))[i]? = some k ∧ c = i % 5 ∧ i < s.colors.length := by
  simp only [State.find, Option.map_eq_some_iff] at hf
  obtain ⟨e, he, rfl⟩ := hf
  have hk : e.1 = k := by simpa using List.find?_some he
  obtain ⟨i, hi⟩ := List.getElem?_of_mem (List.mem_of_find?_eq_some he)
  have hlt : i < s.colors.length := (List.getElem?_eq_some_iff.1 hi).1
  refine ⟨i, by rw [List.getElem?_map, hi]; simp [hk], ?_, hlt⟩
  have := congrArg (·[i]?) h.turn
  simp only [List.getElem?_map, hi, List.getElem?_range hlt, Option.map_some, Option.some.injEq] at this
  exact this

end C180

/-- C180, same page: whatever actions there are, two actions of the same page have the same colour. -/
theorem C180_same (as : List (Text × Text)) (i j : Nat) (a : Text × Text) (c d : Nat) (hi : as[i]? = some a) (hj : as[j]? = some a)
    (hc : (State.marks {} as).2[i]? = some c) (hd : (State.marks {} as).2[j]? = some d) : c = d := by
  have h1 := C180.marks_get as {} i a c hi hc
  have h2 := C180.marks_get as {} j a d hj hd
  rw [h1] at h2
  exact Option.some.inj h2

/-- There are only five colours. -/
theorem C180_range (as : List (Text × Text)) (i : Nat) (a : Text × Text) (c : Nat) (hi : as[i]? = some a)
    (hc : (State.marks {} as).2[i]? = some c) : c < 5 := by
  obtain ⟨k, -, rfl, -⟩ := C180.find_index (C180.ok_marks as {} C180.ok_start) (C180.marks_get as {} i a c hi hc)
  omega

/-- C180, different pages: if there are not more than five pages, actions of different pages have different colours. Missing: pages for which the name of the pager followed
by the one of the page is the same text (`C180_names_witness`). -/
theorem C180_different_partial (as : List (Text × Text)) (pages : List (Text × Text)) (hp : pages.length ≤ 5) (hall : ∀ a ∈ as, a ∈ pages)
    (i j : Nat) (a b : Text × Text) (c d : Nat) (hi : as[i]? = some a) (hj : as[j]? = some b)
    (hab : a.1 ++ a.2 ≠ b.1 ++ b.2)
    (hc : (State.marks {} as).2[i]? = some c) (hd : (State.marks {} as).2[j]? = some d) : c ≠ d := by
  have hok := C180.ok_marks as {} C180.ok_start
  obtain ⟨x, hx, rfl, hxl⟩ := C180.find_index hok (C180.marks_get as {} i a c hi hc)
  obtain ⟨y, hy, rfl, hyl⟩ := C180.find_index hok (C180.marks_get as {} j b d hj hd)
  have hlen : (State.marks {} as).1.colors.length ≤ 5 := by
    have hsub : (State.marks {} as).1.colors.map (·.1) ⊆ pages.map fun p => key p.1 p.2 := by
      intro k hk
      rcases C180.keys_marks as {} k hk with h | ⟨a, ha, rfl⟩
      · cases h
      · exact List.mem_map.2 ⟨a, hall a ha, rfl⟩
    have := List.Nodup.length_le_of_subset hok.nodup hsub
    simp only [List.length_map] at this
    omega
  intro e
  have : x = y := by omega
  subst this
  rw [hx] at hy
  exact hab (Option.some.inj hy)

/-! ### Cases -/

/-- Actions of two pagers. -/
def c180Actions : List (Text × Text) := [("_pager".toList, "1".toList), ("_pager".toList, "2".toList), ("_other".toList, "1".toList), ("_pager".toList, "1".toList)]

example : (State.marks {} c180Actions).2 = [0, 1, 2, 0] := by decide +kernel

example : c180Actions.eraseDups.length ≤ 5 ∧ ∀ a ∈ c180Actions, a ∈ c180Actions.eraseDups := by decide +kernel

/-- Page 11 of the pager `_pager` and page 1 of the pager `_pager1` have the same colour, although there are only two pages. -/
theorem C180_names_witness : (State.marks {} [("_pager".toList, "11".toList), ("_pager1".toList, "1".toList)]).2 = [0, 0] := by decide +kernel

end PySwitch.Props
