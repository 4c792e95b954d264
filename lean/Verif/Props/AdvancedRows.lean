import Verif.Model.AdvancedRows
import Verif.Spec.AdvancedRows
/-!
C208: the advanced parameters of an action are shown level by level.
-/
namespace PySwitch.Props
open PySwitch.AdvancedRows
open PySwitch.Spec.AdvancedRows (Advanced clicks Shown)

namespace C208

theorem put_length (name : Text) : ∀ (rows : List (List Row)) (k : Nat), (put name rows k).length = rows.length
  | [], _ => rfl
  | _ :: _, 0 => rfl
  | _ :: rs, k + 1 => by simp [put, put_length name rs k]

theorem put_getD (name : Text) : ∀ (rows : List (List Row)) (j k : Nat), j < rows.length →
    (put name rows j).getD k [] = if k = j then rows.getD k [] ++ [⟨name, false⟩] else rows.getD k []
  | [], j, k, h => absurd h (by simp)
  | r :: rs, 0, k, _ => by cases k <;> simp [put]
  | r :: rs, j + 1, k, h => by
    cases k with
    | zero => simp [put]
    | succ k =>
      have := put_getD name rs j k (by simpa using h)
      simpa [put] using this

theorem pad_getD (rows : List (List Row)) (level k : Nat) : (pad rows level).getD k [] = rows.getD k [] := by
  unfold pad
  simp only [List.getD_eq_getElem?_getD, List.getElem?_append]
  split
  · rfl
  · rename_i h
    rw [List.getElem?_replicate]
    rw [List.getElem?_eq_none (by omega)]
    split <;> rfl

theorem pad_length (rows : List (List Row)) (level : Nat) : (pad rows level).length = max rows.length level := by
  simp [pad]; omega

/-- The rows before the first step. -/
theorem build (params : List Param) : ∀ d : Dialog,
    (params.foldl Dialog.add d).base = d.base ++ (params.filter fun p => ¬ Advanced p).map (·.name) ∧
    (∀ k, (params.foldl Dialog.add d).rows.getD k [] =
      d.rows.getD k [] ++ (params.filter fun p => Advanced p ∧ p.level = k + 1).map fun p => ⟨p.name, false⟩) ∧
    (∀ n, n < (params.foldl Dialog.add d).rows.length ↔ n < d.rows.length ∨ ∃ p ∈ params, Advanced p ∧ n < p.level) ∧
    (params.foldl Dialog.add d).level = d.level ∧ (params.foldl Dialog.add d).label = d.label := by
  induction params with
  | nil => intro d; simp
  | cons p ps ih =>
    intro d
    rw [List.foldl_cons]
    obtain ⟨h1, h2, h3, h4, h5⟩ := ih (d.add p)
    by_cases ha : Advanced p
    · have e : d.add p = { d with rows := register d.rows p.name p.level } := by
        unfold Dialog.add; rw [if_pos ⟨ha.2, ha.1⟩]
      have hl : p.level - 1 < (pad d.rows p.level).length := by
        rw [pad_length]; have := ha.1; omega
      have hlen : (register d.rows p.name p.level).length = max d.rows.length p.level := by
        rw [register, put_length, pad_length]
      rw [e] at h1 h2 h3 h4 h5
      rw [e]
      refine ⟨?_, ?_, ?_, h4, h5⟩
      · rw [h1]; simp [ha]
      · intro k
        rw [h2 k]
        simp only [register]
        rw [put_getD _ _ _ _ hl, pad_getD]
        have := ha.1
        by_cases hk : p.level = k + 1
        · rw [if_pos (by omega)]; simp [ha, hk]
        · rw [if_neg (by omega)]; simp [hk]
      · intro n
        rw [h3 n]
        simp only [hlen, List.mem_cons]
        constructor
        · rintro (h | ⟨q, hq, h⟩)
          · by_cases hn : n < d.rows.length
            · exact Or.inl hn
            · exact Or.inr ⟨p, Or.inl rfl, ha, by omega⟩
          · exact Or.inr ⟨q, Or.inr hq, h⟩
        · rintro (h | ⟨q, rfl | hq, h⟩)
          · left; omega
          · left; have := h.2; omega
          · exact Or.inr ⟨q, hq, h⟩
    · have e : d.add p = { d with base := d.base ++ [p.name] } := by
        unfold Dialog.add; rw [if_neg fun h => ha ⟨h.2, h.1⟩]
      rw [e] at h1 h2 h3 h4 h5
      rw [e]
      refine ⟨?_, ?_, ?_, h4, h5⟩
      · rw [h1]; simp [ha]
      · intro k; rw [h2 k]; simp [ha]
      · intro n
        rw [h3 n]
        simp only [List.mem_cons]
        constructor
        · rintro (h | ⟨q, hq, h⟩)
          · exact Or.inl h
          · exact Or.inr ⟨q, Or.inr hq, h⟩
        · rintro (h | ⟨q, rfl | hq, h⟩)
          · exact Or.inl h
          · exact absurd h.1 ha
          · exact Or.inr ⟨q, hq, h⟩

theorem show_length : ∀ (rows : List (List Row)) (k : Nat), (showLevel rows k).length = rows.length
  | [], _ => rfl
  | _ :: _, 0 => by simp [showLevel]
  | _ :: rs, k + 1 => by simp [showLevel, show_length rs k]

theorem show_getD : ∀ (rows : List (List Row)) (j k : Nat),
    (showLevel rows j).getD k [] = if k = j then (rows.getD k []).map (fun x => { x with visible := true }) else rows.getD k []
  | [], j, k => by simp [showLevel]
  | r :: rs, 0, k => by cases k <;> simp [showLevel]
  | r :: rs, j + 1, k => by
    cases k with
    | zero => simp [showLevel]
    | succ k => simpa [showLevel] using show_getD rs j k

/-- A row of level `k` after some steps. -/
def vis (ops : List Op) (k : Nat) (x : Row) : Row := ⟨x.name, x.visible || decide (k < clicks ops ∨ .value x.name ∈ ops)⟩

/-- The invariant, for the dialog `d0` at first. -/
structure Inv (d0 : Dialog) (ops : List Op) (d : Dialog) : Prop where
  base : d.base = d0.base
  length : d.rows.length = d0.rows.length
  rows : ∀ k, k < d0.rows.length → d.rows.getD k [] = (d0.rows.getD k []).map (vis ops k)
  level : d.level = min (clicks ops) d0.rows.length
  button : d.button = decide (clicks ops < d0.rows.length)
  label : d.label = if 2 ≤ d0.rows.length ∧ d0.rows.length ≤ clicks ops + 1 then "all...".toList else "more...".toList

theorem clicks_click (ops : List Op) : clicks (ops ++ [.click]) = clicks ops + 1 := by
  simp [Spec.AdvancedRows.clicks]

theorem clicks_value (ops : List Op) (n : Text) : clicks (ops ++ [.value n]) = clicks ops := by
  simp [Spec.AdvancedRows.clicks]

theorem click_eq (d : Dialog) (hb : d.button = true) (hl : d.level + 1 ≤ d.rows.length) :
    d.click = { d with level := d.level + 1, rows := showLevel d.rows d.level, button := decide (d.rows.length ≠ d.level + 1),
                       label := if d.rows.length = d.level + 2 then "all...".toList else d.label } := by
  unfold Dialog.click
  rw [if_pos hb]
  simp only
  rw [if_neg (by omega)]
  simp only [Nat.add_sub_cancel, show_length]
  by_cases h1 : d.rows.length = d.level + 1 + 1
  · have h2 : d.rows.length ≠ d.level + 1 := by omega
    simp [h1, hb, show_length]
  · by_cases h2 : d.rows.length = d.level + 1
    · simp [h2, show_length]
    · simp [h1, h2, hb, show_length]

theorem inv_click (d0 d : Dialog) (ops : List Op) (h : Inv d0 ops d) : Inv d0 (ops ++ [.click]) d.click := by
  have hvis : ∀ k, k < clicks ops ∨ clicks ops < k → ∀ x, vis (ops ++ [.click]) k x = vis ops k x := by
    intro k hk x
    unfold vis
    rw [clicks_click]
    have h1 : (k < clicks ops + 1 ∨ Op.value x.name ∈ ops ++ [.click]) ↔ (k < clicks ops ∨ Op.value x.name ∈ ops) := by
      simp only [List.mem_append, List.mem_singleton, reduceCtorEq, or_false]
      constructor
      · rintro (h | h)
        · left; omega
        · exact Or.inr h
      · rintro (h | h)
        · left; omega
        · exact Or.inr h
    simp only [h1]
  by_cases hb : clicks ops < d0.rows.length
  · have hbt : d.button = true := by rw [h.button]; simpa using hb
    have hl : d.level = clicks ops := by rw [h.level]; omega
    rw [click_eq d hbt (by rw [h.length]; omega), hl]
    have hlen : (showLevel d.rows (clicks ops)).length = d0.rows.length := by rw [show_length, h.length]
    have hrows : ∀ k, k < d0.rows.length →
        (showLevel d.rows (clicks ops)).getD k [] = (d0.rows.getD k []).map (vis (ops ++ [.click]) k) := by
      intro k hk
      rw [show_getD, h.rows k hk]
      by_cases hkc : k = clicks ops
      · rw [if_pos hkc, List.map_map]
        apply List.map_congr_left
        intro x _
        simp only [Function.comp, vis, clicks_click, hkc]
        simp
      · rw [if_neg hkc]
        apply List.map_congr_left
        intro x _
        exact (hvis k (by omega) x).symm
    refine ⟨h.base, hlen, hrows, ?_, ?_, ?_⟩
    · rw [clicks_click]; simp only; omega
    · rw [clicks_click]; simp only; rw [h.length, decide_eq_decide]; omega
    · rw [clicks_click]
      simp only
      rw [h.length, h.label]
      by_cases ha : d0.rows.length = clicks ops + 2
      · rw [if_pos ha, if_pos (by omega)]
      · rw [if_neg ha]
        by_cases h2 : 2 ≤ d0.rows.length ∧ d0.rows.length ≤ clicks ops + 1
        · rw [if_pos h2, if_pos (by omega)]
        · rw [if_neg h2, if_neg (by omega)]
  · have hbt : d.button = false := by rw [h.button]; simpa using hb
    have hd : d.click = d := by unfold Dialog.click; rw [hbt]; rfl
    rw [hd]
    refine ⟨h.base, h.length, ?_, ?_, ?_, ?_⟩
    · intro k hk
      rw [h.rows k hk]
      apply List.map_congr_left
      intro x _
      exact (hvis k (by omega) x).symm
    · rw [clicks_click, h.level]; omega
    · rw [clicks_click, h.button, decide_eq_false hb, decide_eq_false (by omega)]
    · rw [clicks_click, h.label]
      by_cases h2 : 2 ≤ d0.rows.length
      · rw [if_pos (by omega), if_pos (by omega)]
      · rw [if_neg (by omega), if_neg (by omega)]

theorem inv_value (d0 d : Dialog) (ops : List Op) (h : Inv d0 ops d) (n : Text) : Inv d0 (ops ++ [.value n]) (d.showParameter n) := by
  refine ⟨h.base, by simp [Dialog.showParameter, h.length], ?_, by rw [clicks_value]; exact h.level, by rw [clicks_value]; exact h.button,
    by rw [clicks_value]; exact h.label⟩
  intro k hk
  have hk' : k < d.rows.length := by rw [h.length]; exact hk
  have e := h.rows k hk
  have : (d.showParameter n).rows.getD k [] = (d.rows.getD k []).map fun x => if x.name = n then { x with visible := true } else x := by
    simp [Dialog.showParameter, List.getD_eq_getElem?_getD, List.getElem?_map, List.getElem?_eq_getElem hk']
  rw [this, e, List.map_map]
  apply List.map_congr_left
  intro x _
  show (if (vis ops k x).name = n then { vis ops k x with visible := true } else vis ops k x) = vis (ops ++ [.value n]) k x
  by_cases hx : x.name = n
  · rw [if_pos (show (vis ops k x).name = n from hx)]; simp [vis, hx]
  · rw [if_neg (show ¬ (vis ops k x).name = n from hx)]
    unfold vis
    rw [clicks_value]
    have : (Op.value x.name ∈ ops ++ [.value n]) ↔ Op.value x.name ∈ ops := by simp [hx]
    simp only [this]

theorem inv_run (d0 : Dialog) (ops : List Op) : ∀ (pre : List Op) (d : Dialog), Inv d0 pre d → Inv d0 (pre ++ ops) (d.run ops) := by
  induction ops with
  | nil => intro pre d h; simpa [Dialog.run] using h
  | cons op ops ih =>
    intro pre d h
    have hs : Inv d0 (pre ++ [op]) (d.step op) := by
      cases op with
      | click => exact inv_click d0 d pre h
      | value n => exact inv_value d0 d pre h n
    have := ih (pre ++ [op]) (d.step op) hs
    simpa [Dialog.run] using this

theorem inv_start (params : List Param) (ops : List Op) : Inv (start params) ops ((start params).run ops) := by
  have b := build params {}
  have h0 : Inv (start params) [] (start params) := by
    refine ⟨rfl, rfl, ?_, ?_, ?_, ?_⟩
    · intro k _
      have : vis [] k = id := by funext x; simp [vis, Spec.AdvancedRows.clicks]
      rw [this, List.map_id]
    · have : (start params).level = 0 := b.2.2.2.1
      rw [this]; simp [Spec.AdvancedRows.clicks]
    · simp [Spec.AdvancedRows.clicks, start, Dialog.finish]
    · have : (start params).label = "more...".toList := b.2.2.2.2
      rw [this, if_neg]
      simp only [Spec.AdvancedRows.clicks, List.count_nil]
      omega
  simpa using inv_run (start params) ops [] _ h0

end C208

/-- Parameters which are not advanced, or which have messages, are always shown; each other row is there, in its level, in the order of the
parameters, and it is shown exactly if its level was reached with the button, or if its parameter got a value. -/
theorem C208_shown (params : List Param) (ops : List Op) :
    ((start params).run ops).base = (params.filter fun p => ¬ Advanced p).map (·.name) ∧
    ∀ k, ((start params).run ops).rows.getD k [] =
      (params.filter fun p => Advanced p ∧ p.level = k + 1).map fun p => ⟨p.name, decide (Shown ops p)⟩ := by
  have h := C208.inv_start params ops
  have b := C208.build params {}
  refine ⟨h.base.trans (by simpa [start, Dialog.finish] using b.1), fun k => ?_⟩
  have hr : (start params).rows.getD k [] = (params.filter fun p => Advanced p ∧ p.level = k + 1).map fun p => ⟨p.name, false⟩ := by
    simpa [start, Dialog.finish] using b.2.1 k
  by_cases hk : k < (start params).rows.length
  · rw [h.rows k hk, hr, List.map_map]
    apply List.map_congr_left
    intro p hp
    simp only [List.mem_filter, decide_eq_true_eq] at hp
    simp only [Function.comp, C208.vis, Bool.false_or, Row.mk.injEq, true_and]
    rw [decide_eq_decide]
    unfold Spec.AdvancedRows.Shown
    constructor
    · rintro (h | h)
      · exact Or.inr (Or.inl (by omega))
      · exact Or.inr (Or.inr h)
    · rintro (h | h | h)
      · exact absurd hp.2.1 h
      · left; omega
      · exact Or.inr h
  · have e1 : (params.filter fun p => Advanced p ∧ p.level = k + 1) = [] := by
      rw [List.filter_eq_nil_iff]
      intro p hp
      simp only [decide_eq_true_eq]
      rintro ⟨ha, hl⟩
      apply hk
      have := (b.2.2.1 k).2 (Or.inr ⟨p, hp, ha, by omega⟩)
      simpa [start, Dialog.finish] using this
    rw [e1]
    have : ¬ k < ((start params).run ops).rows.length := by rw [h.length]; exact hk
    simp [List.getD_eq_getElem?_getD, List.getElem?_eq_none (Nat.le_of_not_lt this)]

/-- The button is there exactly as long as there is a level which was not reached. -/
theorem C208_button (params : List Param) (ops : List Op) :
    ((start params).run ops).button = true ↔ ∃ p ∈ params, Advanced p ∧ clicks ops < p.level := by
  have h := C208.inv_start params ops
  have b := (C208.build params {}).2.2.1 (clicks ops)
  rw [h.button, decide_eq_true_eq]
  have e : (start params).rows.length = (params.foldl Dialog.add {}).rows.length := rfl
  rw [e, b]
  simp

/-- When the button is gone, all parameters are shown. -/
theorem C208_all (params : List Param) (ops : List Op) (gone : ((start params).run ops).button = false) : ∀ p ∈ params, Shown ops p := by
  intro p hp
  by_cases ha : Advanced p
  · right; left
    apply Nat.le_of_not_lt
    intro hl
    have := (C208_button params ops).2 ⟨p, hp, ha, hl⟩
    rw [gone] at this
    exact Bool.noConfusion this
  · exact Or.inl ha

/-- What is shown stays shown. -/
theorem C208_stays (ops more : List Op) (p : Param) (h : Shown ops p) : Shown (ops ++ more) p := by
  rcases h with h | h | h
  · exact Or.inl h
  · right; left
    simp only [Spec.AdvancedRows.clicks, List.count_append] at *
    omega
  · exact Or.inr (Or.inr (List.mem_append_left _ h))

/-- If there are at least two levels (there are: the row for the name of the action has level 2), then the button says "all..." exactly if the
next click shows the last level (or if it is gone), and "more..." otherwise. -/
theorem C208_label (params : List Param) (two : ∃ p ∈ params, Advanced p ∧ 2 ≤ p.level) (ops : List Op) :
    ((start params).run ops).label =
      if ∃ p ∈ params, Advanced p ∧ clicks ops + 1 < p.level then "more...".toList else "all...".toList := by
  have h := C208.inv_start params ops
  have b := (C208.build params {}).2.2.1
  have hlen : ∀ n, n < (start params).rows.length ↔ ∃ p ∈ params, Advanced p ∧ n < p.level := by
    intro n
    have e : (start params).rows.length = (params.foldl Dialog.add {}).rows.length := rfl
    rw [e, b]; simp
  rw [h.label]
  have h2 : 1 < (start params).rows.length := (hlen 1).2 two
  by_cases hm : ∃ p ∈ params, Advanced p ∧ clicks ops + 1 < p.level
  · rw [if_pos hm]
    have := (hlen _).2 hm
    rw [if_neg (by omega)]
  · rw [if_neg hm]
    have : ¬ clicks ops + 1 < (start params).rows.length := fun e => hm ((hlen _).1 e)
    rw [if_pos (by omega)]

/-- Some parameters, with the row for the name. -/
def C208.some : List Param := [⟨"id".toList, 1, false⟩, ⟨"color".toList, 0, false⟩, ⟨"pages".toList, 3, false⟩, ⟨"text".toList, 2, true⟩, ⟨"assign".toList, 2, false⟩]

example : (start C208.some).rows = [[⟨"id".toList, false⟩], [⟨"assign".toList, false⟩], [⟨"pages".toList, false⟩]] ∧
    (start C208.some).base = ["color".toList, "text".toList] ∧ (start C208.some).button = true := by decide +kernel

example : ((start C208.some).run [.click, .value "pages".toList]).rows = [[⟨"id".toList, true⟩], [⟨"assign".toList, false⟩], [⟨"pages".toList, true⟩]] ∧
    ((start C208.some).run [.click, .click]).label = "all...".toList ∧ ((start C208.some).run [.click, .click, .click]).button = false := by decide +kernel

end PySwitch.Props
