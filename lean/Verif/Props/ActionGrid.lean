import Verif.Spec.ActionGrid
/-! C192: the actions of an input are shown one below the other. -/

namespace PySwitch.Props
open PySwitch PySwitch.ActionGrid PySwitch.Spec.ActionGrid

namespace C192

/-- The loop from any point on. -/
theorem fold (items : List Item) (a : Acc) :
    let r := items.foldl place a
    r.y + r.h = a.y + a.h + total items ∧
    (∃ l, r.slots = a.slots ++ l ∧ l.length = 2 * items.length ∧
      ∀ k, k < items.length → l[2 * k]? = some 0 ∧ l[2 * k + 1]? = some (a.y + a.h + total (items.take k))) ∧
    a.w ≤ r.w ∧ (∀ i ∈ items, outerWidth i ≤ r.w) ∧ (r.w = a.w ∨ ∃ i ∈ items, outerWidth i = r.w) := by
  induction items generalizing a with
  | nil => simp [total]
  | cons i items ih =>
    obtain ⟨h1, ⟨l, h2, h3, h4⟩, h5, h6, h7⟩ := ih (place a i)
    simp only [List.foldl_cons]
    refine ⟨?_, ⟨0 :: (a.y + a.h) :: l, ?_, ?_, ?_⟩, ?_, ?_, ?_⟩
    · rw [h1]; simp only [place, total, List.map_cons, List.sum_cons, outer]; omega
    · rw [h2]; simp [place]
    · simp only [List.length_cons, h3]; omega
    · intro k hk
      cases k with
      | zero => simp [total]
      | succ k =>
        have h := h4 k (by simpa using hk)
        have e1 : 2 * (k + 1) = 2 * k + 1 + 1 := by omega
        have e2 : 2 * (k + 1) + 1 = 2 * k + 1 + 1 + 1 := by omega
        refine ⟨?_, ?_⟩
        · rw [e1]; simpa using h.1
        · rw [e2]
          simp only [List.getElem?_cons_succ, h.2, place, List.take_succ_cons, total, List.map_cons, List.sum_cons, outer]
          congr 1; omega
    · refine Int.le_trans ?_ h5
      simp only [place]; split <;> omega
    · intro j hj
      rcases List.mem_cons.mp hj with rfl | hj
      · refine Int.le_trans ?_ h5
        simp only [place, outerWidth]; split <;> omega
      · exact h6 j hj
    · rcases h7 with h7 | ⟨j, hj, h7⟩
      · rw [h7]
        by_cases hw : i.width + i.left + i.right > a.w
        · right; exact ⟨i, by simp, by simp only [place, outerWidth, hw, if_true]; omega⟩
        · left; simp only [place, hw, if_false]
      · right; exact ⟨j, by simp [hj], h7⟩

theorem box_eq (items : List Item) (k : Nat) (hk : k < items.length) :
    box items k = some ⟨items[k].left, total (items.take k) + items[k].top, items[k].left + items[k].width,
      total (items.take k) + items[k].top + items[k].height⟩ := by
  obtain ⟨_, ⟨l, h2, _, h4⟩, _⟩ := fold items {}
  have hs : (layout items).slots = l := by simp only [layout, h2]; rfl
  obtain ⟨hx, hy⟩ := h4 k hk
  unfold box
  rw [hs, hx, hy, List.getElem?_eq_getElem hk]
  simp

theorem total_take (items : List Item) (k : Nat) (hk : k < items.length) :
    total (items.take (k + 1)) = total (items.take k) + outer items[k] := by
  have : items.take (k + 1) = items.take k ++ [items[k]] := by simp
  unfold total
  rw [this, List.map_append, List.sum_append, List.map_singleton, List.sum_singleton]

theorem total_mono (items : List Item) (hs : Sane items) (a d : Nat) :
    total (items.take a) ≤ total (items.take (a + d)) := by
  induction d with
  | zero => exact Int.le_refl _
  | succ d ih =>
    refine Int.le_trans ih ?_
    by_cases h : a + d < items.length
    · rw [show a + (d + 1) = a + d + 1 from rfl, total_take items (a + d) h]
      have := hs _ (List.getElem_mem h)
      unfold outer; omega
    · rw [List.take_of_length_le (by omega), List.take_of_length_le (by omega)]; exact Int.le_refl _

theorem total_nonneg (items : List Item) (hs : Sane items) (a : Nat) : 0 ≤ total (items.take a) := by
  have := total_mono items hs 0 a
  simpa [total] using this

theorem total_le (items : List Item) (hs : Sane items) (a : Nat) : total (items.take a) ≤ total items := by
  have := total_mono items hs a items.length
  rwa [List.take_of_length_le (by omega : items.length ≤ a + items.length)] at this

end C192

/-- C192. Every action gets a place, which is inside of the list. -/
theorem C192_inside (items : List Item) (hs : Sane items) (k : Nat) (hk : k < items.length) :
    ∃ b, box items k = some b ∧ 0 ≤ b.x ∧ b.x ≤ b.x' ∧ b.x' ≤ (layout items).width ∧
      0 ≤ b.y ∧ b.y ≤ b.y' ∧ b.y' ≤ (layout items).height ∧
      b.x' - b.x = items[k].width ∧ b.y' - b.y = items[k].height := by
  refine ⟨_, C192.box_eq items k hk, ?_⟩
  obtain ⟨h1, _, _, h6, _⟩ := C192.fold items {}
  have hh : (layout items).height = total items := by simp only [layout]; simp only [] at h1; omega
  have hw : outerWidth items[k] ≤ (layout items).width := h6 _ (List.getElem_mem hk)
  have hi := hs _ (List.getElem_mem hk)
  have hn := C192.total_nonneg items hs k
  have hl := C192.total_le items hs (k + 1)
  rw [C192.total_take items k hk] at hl
  unfold outer at hl
  unfold outerWidth at hw
  rw [hh]
  simp only
  omega

/-- C192. The actions are shown in their order, one below the other, so no two of them overlap: the distance is at least the margins between them. -/
theorem C192_order (items : List Item) (hs : Sane items) (j k : Nat) (hjk : j < k) (hk : k < items.length) (bj bk : Box)
    (hj : box items j = some bj) (hb : box items k = some bk) :
    bj.y' + items[j].bottom + items[k].top ≤ bk.y := by
  rw [C192.box_eq items j (by omega)] at hj
  rw [C192.box_eq items k hk] at hb
  cases hj; cases hb
  have h1 := C192.total_take items j (by omega)
  have h2 := C192.total_mono items hs (j + 1) (k - (j + 1))
  rw [show j + 1 + (k - (j + 1)) = k by omega] at h2
  unfold outer at h1
  simp only
  omega

/-- C192. The list is not larger than necessary: it is as high as all the actions with their margins, and as wide as the widest one. -/
theorem C192_tight (items : List Item) :
    (layout items).height = total items ∧
      ((layout items).width = 0 ∨ ∃ i ∈ items, outerWidth i = (layout items).width) ∧
      ∀ i ∈ items, outerWidth i ≤ (layout items).width := by
  obtain ⟨h1, _, _, h6, h7⟩ := C192.fold items {}
  refine ⟨?_, h7, h6⟩
  simp only [layout]; simp only [] at h1; omega

/-- Three actions, one of them wider. -/
example : let items : List Item := [⟨100, 20, 2, 1, 2, 1⟩, ⟨140, 20, 2, 1, 2, 1⟩, ⟨90, 25, 2, 1, 2, 1⟩]
    Sane items ∧ layout items = ⟨[0, 0, 0, 24, 0, 48], 142, 77⟩ ∧ box items 1 = some ⟨1, 26, 141, 46⟩ := by
  refine ⟨?_, by decide, by decide⟩
  intro i hi
  simp only [List.mem_cons, List.not_mem_nil, or_false] at hi
  rcases hi with rfl | rfl | rfl <;> decide

end PySwitch.Props
