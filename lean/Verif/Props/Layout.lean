import Verif.Lemmas.Layout
/-
Properties of the display layout: C53, C54.
-/
namespace PySwitch.Props
open PySwitch PySwitch.Layout

/-! ### C53 -/

/-- C53. Removing a strip from any side, of at most the size of the area: each pixel of the area is in exactly one of the
strip and the rest, and no other pixel is. -/
theorem C53_partition (b : Bounds) (s : Side) (amount : Rat) (h0 : 0 ≤ pyInt amount) (h1 : pyInt amount ≤ b.extent s)
    (px py : Int) :
    covers [(b.removeFrom s amount).1, (b.removeFrom s amount).2] px py = if b.Has px py then 1 else 0 := by
  rw [covers_cons, covers_cons]
  simp only [covers, List.countP_nil, Nat.zero_add]
  rw [Nat.add_comm]
  exact cut_partition b s amount h0 h1 px py

/-- C53. Any sequence of such removals from one area: each pixel of the area is in exactly one of all the strips and the
rest. -/
theorem C53_sequence (b : Bounds) (cuts : List (Side × Rat)) (h : Fits b.width b.height cuts) (px py : Int) :
    covers ((removeAll b cuts).1 ++ [(removeAll b cuts).2]) px py = if b.Has px py then 1 else 0 :=
  removeAll_partition cuts b h px py

/-- C53. The strip is as large as requested, at the side requested, and has the full extent of the area across. -/
theorem C53_strip (b : Bounds) (s : Side) (amount : Rat) (h1 : pyInt amount ≤ b.extent s) (px py : Int) :
    (b.removeFrom s amount).1.Has px py ↔ b.Has px py ∧ b.Near (pyInt amount) px py s := by
  generalize hn : pyInt amount = n at h1
  cases s <;> simp only [Bounds.removeFrom, Bounds.Has, Bounds.extent, Bounds.Near, hn] at * <;> omega

/-- C53. The functions which only look at a part return the strip the others would remove. -/
theorem C53_part (b : Bounds) (s : Side) (amount : Rat) : b.part s amount = (b.removeFrom s amount).1 := by
  cases s <;> rfl

/-- C53. The condition on the size is needed: with any other amount, some pixel is counted wrongly. -/
theorem C53_only (b : Bounds) (s : Side) (amount : Rat) (hw : 0 < b.width) (hh : 0 < b.height)
    (h : ∀ px py, covers [(b.removeFrom s amount).1, (b.removeFrom s amount).2] px py = if b.Has px py then 1 else 0) :
    0 ≤ pyInt amount ∧ pyInt amount ≤ b.extent s := by
  have h' : ∀ px py, (b.removeFrom s amount).1.Has px py ∨ (b.removeFrom s amount).2.Has px py → b.Has px py := by
    intro px py hp
    have := h px py
    rw [covers_cons, covers_cons] at this
    simp only [covers, List.countP_nil, Nat.zero_add] at this
    apply Classical.byContradiction
    intro hb
    rw [if_neg hb] at this
    rcases hp with hp | hp
    · rw [if_pos hp] at this; omega
    · rw [if_pos hp] at this; omega
  generalize hn : pyInt amount = n at *
  apply Classical.byContradiction
  intro hc
  have hcase : n < 0 ∨ b.extent s < n := by omega
  cases s <;> simp only [Bounds.removeFrom, Bounds.Has, Bounds.extent, hn] at h' hcase
  · rcases hcase with hc | hc
    · have := h' b.x (b.y + n); omega
    · have := h' b.x (b.y + b.height); omega
  · rcases hcase with hc | hc
    · have := h' b.x (b.y + b.height - n - 1); omega
    · have := h' b.x (b.y + b.height - n); omega
  · rcases hcase with hc | hc
    · have := h' (b.x + n) b.y; omega
    · have := h' (b.x + b.width) b.y; omega
  · rcases hcase with hc | hc
    · have := h' (b.x + b.width - n - 1) b.y; omega
    · have := h' (b.x + b.width - n) b.y; omega

/-- C53. Moving an area moves all its pixels. -/
theorem C53_translate (b : Bounds) (x y : Rat) (px py : Int) :
    (b.translate x y).Has (px + pyInt x) (py + pyInt y) ↔ b.Has px py := by
  simp only [Bounds.translate, Bounds.Has]; omega

/-- A typical display of 240 x 240 pixels: a row of 40 pixels at the top and one at the bottom, each divided in two. -/
def screen : Bounds := ⟨0, 0, 240, 240⟩

example : Fits screen.width screen.height [(.top, 40), (.bottom, 81 / 2), (.left, 120)] := by
  simp only [Fits]; decide +kernel
example : (removeAll screen [(.top, 40), (.bottom, 81 / 2), (.left, 120)]).2 = ⟨120, 40, 120, 160⟩ := by decide +kernel
example : (removeAll screen [(.top, 40), (.bottom, 81 / 2), (.left, 120)]).1 =
    [⟨0, 0, 240, 40⟩, ⟨0, 200, 240, 40⟩, ⟨0, 40, 120, 160⟩] := by decide +kernel

/-! ### C54 -/

/-- C54. Updating the layout of a split container splits its area fairly among its children, and so on for all split
containers inside, whatever state they have been in. -/
theorem C54_update (i : Info) (cs : List Elem) (d : Dir) (hs : i.split = some d) (hw : 0 ≤ i.bounds.width)
    (hh : 0 ≤ i.bounds.height) (hc : ∀ c ∈ cs, Ready c) : LaidOut (Elem.node i cs).updateBounds :=
  updateBounds_laidOut i cs d hs hw hh hc

/-- C54. Whatever is added anywhere, in any order: all split containers in the tree stay laid out. -/
theorem C54_history (ops : List (Elem × List Nat)) (hops : ∀ o ∈ ops, LaidOut o.1) (e : Elem) (he : LaidOut e) :
    LaidOut (ops.foldl (fun t o => Elem.addAt o.1 o.2 t) e) := by
  induction ops generalizing e with
  | nil => exact he
  | cons o ops ih =>
    exact ih (fun x hx => hops x (by simp [hx])) _ (add_laidOut o.1 (hops o (by simp)) o.2 e he)

/-- C54. So no two of the elements drawn overlap, however deeply the containers are nested, and they are all inside the
area of the outermost container. -/
theorem C54_no_overlap (e : Elem) (he : LaidOut e) (px py : Int) :
    covers e.cells px py ≤ 1 ∧ (0 < covers e.cells px py → e.bounds.Has px py) :=
  ⟨(cells_laidOut e he px py).1, fun h => ((cells_laidOut e he px py).2 h).2⟩

/-- An empty container, and any other element without children, is laid out. -/
theorem C54_start (i : Info) (hw : 0 ≤ i.bounds.width) (hh : 0 ≤ i.bounds.height) : LaidOut (.node i []) := by
  cases hs : i.split with
  | none => exact .other i [] hs (by simp)
  | some d =>
    refine .split i [] d hs hw hh ?_ (by simp)
    have := slots_fair d i.bounds hw hh 0
    simpa [areas] using this

/-- A label. -/
def aLabel (id : Nat) : Elem := .node { id := id } []
/-- A row of labels, as in explore mode: a split container without an area of its own yet. -/
def aRow (id : Nat) : Elem := .node { id := id, split := some .horizontal } []
/-- The rows container on the screen. -/
def rows : Elem := .node { id := 0, split := some .vertical, bounds := screen } []
/-- Three rows, with three, one and no labels. -/
def filled : Elem :=
  [(aRow 1, []), (aLabel 2, [0]), (aRow 3, []), (aLabel 4, [0]), (aLabel 5, [1]), (aLabel 6, [0]), (aRow 7, [])].foldl
    (fun t o => Elem.addAt o.1 o.2 t) rows

example : LaidOut filled := by
  refine C54_history _ ?_ rows (C54_start _ (by decide) (by decide))
  intro o ho
  simp only [List.mem_cons, List.not_mem_nil, or_false] at ho
  rcases ho with rfl | rfl | rfl | rfl | rfl | rfl | rfl <;> exact C54_start _ (by decide) (by decide)
example : filled.cells = [⟨0, 0, 80, 80⟩, ⟨80, 0, 80, 80⟩, ⟨160, 0, 80, 80⟩, ⟨0, 80, 240, 80⟩] := by decide +kernel

/-- C54. A container created with its children (instead of adding them) is not laid out: the children keep the areas they
were created with, until something is added or the layout is updated by hand. -/
theorem C54_children_argument : ∃ (i : Info) (cs : List Elem), i.split = some .horizontal ∧ i.bounds = screen ∧
    (∀ c ∈ cs, Ready c) ∧ ¬ LaidOut (.node i cs) ∧ LaidOut (Elem.node i cs).updateBounds := by
  refine ⟨{ id := 0, split := some .horizontal, bounds := screen }, [aLabel 1, aLabel 2], rfl, rfl, ?_, ?_, ?_⟩
  · intro c hc
    simp only [List.mem_cons, List.not_mem_nil, or_false] at hc
    rcases hc with rfl | rfl <;> exact .other _ _ rfl (by simp)
  · intro h
    cases h with
    | other _ _ hs => simp at hs
    | split _ _ d hs _ _ hf _ =>
      have := (hf.across ⟨0, 0, 0, 0⟩ (by decide +kernel)).1 (by simp at hs; exact hs.symm)
      simp [screen] at this
  · refine C54_update _ _ .horizontal rfl (by decide) (by decide) ?_
    intro c hc
    simp only [List.mem_cons, List.not_mem_nil, or_false] at hc
    rcases hc with rfl | rfl <;> exact .other _ _ rfl (by simp)

end PySwitch.Props
