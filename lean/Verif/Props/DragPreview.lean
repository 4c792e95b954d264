import Verif.Model.DragPreview
import Verif.Props.DisplayEditor
/-! C194: dragging and resizing in the preview of the display editor. -/

namespace PySwitch.Props
open PySwitch PySwitch.DisplayEditor

namespace C194

/-- A drag: only movements, in pixels of the screen. -/
def drag (ms : List (Rat × Rat)) : List DragPreview.Event := ms.map fun m => .move m.1 m.2

/-- Movements in whole pixels of the display. -/
def whole (scale : Rat) (ks : List (Int × Int)) : List (Rat × Rat) := ks.map fun k => (scale * k.1, scale * k.2)

/-- The sum of the movements. -/
def totalX (ms : List (Rat × Rat)) : Rat := (ms.map (·.1)).sum
def totalY (ms : List (Rat × Rat)) : Rat := (ms.map (·.2)).sum

theorem div_scale (scale : Rat) (hs : scale ≠ 0) (k : Int) : scale * (k : Rat) / scale = k := by
  rw [Rat.mul_comm]; exact Rat.mul_div_cancel hs

theorem round_near (x : Rat) : -(1 / 2) ≤ (DisplayEditor.round x : Rat) - x ∧ (DisplayEditor.round x : Rat) - x ≤ 1 / 2 := by
  have h := C126.round_nearest x
  obtain ⟨h1, h2⟩ := h
  constructor <;> grind

theorem step_move_size (scale : Rat) (b : Bounds) (dx dy : Rat) (hw : 1 ≤ b.w) (hh : 1 ≤ b.h) :
    (DragPreview.step scale b (.move dx dy)).w = b.w ∧ (DragPreview.step scale b (.move dx dy)).h = b.h := by
  simp only [DragPreview.step, setModelBounds]
  rw [C126.round_size, C126.round_size]
  omega

end C194

/-- C194. Dragging an element by whole pixels of the display moves it by exactly the sum of the movements, however they are divided into events, and does not change its size. Missing: movements by parts of pixels, see the witness. -/
theorem C194_drag_partial (scale : Rat) (hs : scale ≠ 0) (b : Bounds) (hw : 1 ≤ b.w) (hh : 1 ≤ b.h) (ks : List (Int × Int)) :
    DragPreview.run scale b (C194.drag (C194.whole scale ks)) =
      ⟨b.x + (ks.map (·.1)).sum, b.y + (ks.map (·.2)).sum, b.w, b.h⟩ := by
  induction ks generalizing b with
  | nil => simp [DragPreview.run, C194.drag, C194.whole]
  | cons k ks ih =>
    have e : DragPreview.step scale b (.move (scale * k.1) (scale * k.2)) = ⟨b.x + k.1, b.y + k.2, b.w, b.h⟩ := by
      have hz := C194.step_move_size scale b (scale * k.1) (scale * k.2) hw hh
      have hx : (DragPreview.step scale b (.move (scale * k.1) (scale * k.2))).x = b.x + k.1 := by
        simp only [DragPreview.step, setModelBounds, C194.div_scale scale hs]
        rw [← Rat.intCast_add, C126.round_int]
      have hy : (DragPreview.step scale b (.move (scale * k.1) (scale * k.2))).y = b.y + k.2 := by
        simp only [DragPreview.step, setModelBounds, C194.div_scale scale hs]
        rw [← Rat.intCast_add, C126.round_int]
      generalize DragPreview.step scale b (.move (scale * k.1) (scale * k.2)) = u at *
      obtain ⟨ux, uy, uw, uh⟩ := u
      obtain ⟨h1, h2⟩ := hz
      simp only at h1 h2 hx hy
      subst h1 h2 hx hy; rfl
    simp only [DragPreview.run, C194.drag, C194.whole, List.map_cons, List.foldl_cons, e] at ih ⊢
    rw [ih ⟨b.x + k.1, b.y + k.2, b.w, b.h⟩ hw hh]
    simp only [List.sum_cons, Int.add_assoc]

/-- C194. With any movements, the element is at most half a pixel per event away from where the pointer has dragged it to. -/
theorem C194_near (scale : Rat) (b : Bounds) (ms : List (Rat × Rat)) :
    let r := DragPreview.run scale b (C194.drag ms)
    let dx : Rat := (ms.map fun m => m.1 / scale).sum
    let dy : Rat := (ms.map fun m => m.2 / scale).sum
    (b.x + dx) - ms.length / 2 ≤ r.x ∧ r.x ≤ (b.x + dx) + ms.length / 2 ∧
      (b.y + dy) - ms.length / 2 ≤ r.y ∧ r.y ≤ (b.y + dy) + ms.length / 2 := by
  induction ms generalizing b with
  | nil =>
    simp only [DragPreview.run, C194.drag, List.map_nil, List.foldl_nil, List.sum_nil, List.length_nil]
    have e : ((0 : Nat) : Rat) = 0 := rfl
    grind
  | cons m ms ih =>
    have h := ih (DragPreview.step scale b (.move m.1 m.2))
    have hx := C194.round_near (b.x + m.1 / scale)
    have hy := C194.round_near (b.y + m.2 / scale)
    have ex : ((DragPreview.step scale b (.move m.1 m.2)).x : Rat) = DisplayEditor.round (b.x + m.1 / scale) := rfl
    have ey : ((DragPreview.step scale b (.move m.1 m.2)).y : Rat) = DisplayEditor.round (b.y + m.2 / scale) := rfl
    simp only [DragPreview.run, C194.drag, List.map_cons, List.foldl_cons, List.sum_cons, List.length_cons] at h ⊢
    rw [ex, ey] at h
    have e : ((ms.length + 1 : Nat) : Rat) = ms.length + 1 := by
      rw [Rat.natCast_add]; rfl
    rw [e]
    generalize DisplayEditor.round (b.x + m.1 / scale) = u at *
    generalize DisplayEditor.round (b.y + m.2 / scale) = v at *
    obtain ⟨h1, h2, h3, h4⟩ := h
    obtain ⟨x1, x2⟩ := hx
    obtain ⟨y1, y2⟩ := hy
    refine ⟨?_, ?_, ?_, ?_⟩ <;> grind

/-- C194. An element is never smaller than one pixel, whatever is done with the pointer. -/
theorem C194_size (scale : Rat) (b : Bounds) (es : List DragPreview.Event) (h : es ≠ []) :
    1 ≤ (DragPreview.run scale b es).w ∧ 1 ≤ (DragPreview.run scale b es).h := by
  have key : ∀ (b : Bounds) (e : DragPreview.Event), 1 ≤ (DragPreview.step scale b e).w ∧ 1 ≤ (DragPreview.step scale b e).h := by
    intro b e
    cases e <;> exact ⟨C126.round_pos _, C126.round_pos _⟩
  have all : ∀ (es : List DragPreview.Event) (b : Bounds), 1 ≤ b.w ∧ 1 ≤ b.h →
      1 ≤ (DragPreview.run scale b es).w ∧ 1 ≤ (DragPreview.run scale b es).h := by
    intro es
    induction es with
    | nil => intro b hb; exact hb
    | cons e es ih => intro b _; exact ih _ (key b e)
  cases es with
  | nil => exact absurd rfl h
  | cons e es => exact all es _ (key b e)

/-- C194. Resizing does not move the element, and only the last position of the pointer counts: the size is the shown one in pixels of the display, rounded to the nearest, but not less than 1. -/
theorem C194_resize (scale : Rat) (b : Bounds) (ss : List (Rat × Rat)) (w h : Rat) :
    let r := DragPreview.run scale b ((ss ++ [(w, h)]).map fun s => .size s.1 s.2)
    r.x = b.x ∧ r.y = b.y ∧ Spec.DisplayEditor.Nearest r.w (max 1 (w / scale)) ∧ Spec.DisplayEditor.Nearest r.h (max 1 (h / scale)) := by
  have keep : ∀ (ss : List (Rat × Rat)) (b : Bounds), (DragPreview.run scale b (ss.map fun s => .size s.1 s.2)).x = b.x ∧
      (DragPreview.run scale b (ss.map fun s => .size s.1 s.2)).y = b.y := by
    intro ss
    induction ss with
    | nil => intro b; exact ⟨rfl, rfl⟩
    | cons s ss ih =>
      intro b
      have h := ih (DragPreview.step scale b (.size s.1 s.2))
      have hx : (DragPreview.step scale b (.size s.1 s.2)).x = b.x := C126.round_int b.x
      have hy : (DragPreview.step scale b (.size s.1 s.2)).y = b.y := C126.round_int b.y
      exact ⟨h.1.trans hx, h.2.trans hy⟩
  have hm : ∀ x : Rat, (if x ≥ 1 then x else 1) = max 1 x := by
    intro x
    by_cases hx : x ≥ 1
    · rw [if_pos hx]; simp only [Max.max, maxOfLe]; split <;> grind
    · rw [if_neg hx]; simp only [Max.max, maxOfLe]; split <;> grind
  refine ⟨(keep _ b).1, (keep _ b).2, ?_, ?_⟩
  · simp only [List.map_append, DragPreview.run, List.foldl_append, List.map_cons, List.map_nil, List.foldl_cons, List.foldl_nil, DragPreview.step,
      setModelBounds, hm]
    exact C126.round_nearest _
  · simp only [List.map_append, DragPreview.run, List.foldl_append, List.map_cons, List.map_nil, List.foldl_cons, List.foldl_nil, DragPreview.step,
      setModelBounds, hm]
    exact C126.round_nearest _

/-- C194 fails for movements by parts of pixels: the position is rounded with each event, so with small movements an element stays where it is, however far it is dragged. -/
theorem C194_lost_witness (n : Nat) : let b : Bounds := ⟨10, 20, 100, 30⟩
    DragPreview.run 2 b (C194.drag (List.replicate n (4 / 5, 0))) = b ∧
      C194.totalX (List.replicate n (4 / 5, 0)) = n * (4 / 5) := by
  constructor
  · induction n with
    | zero => rfl
    | succ n ih =>
      have e : DragPreview.step 2 ⟨10, 20, 100, 30⟩ (.move (4 / 5) 0) = ⟨10, 20, 100, 30⟩ := by decide +kernel
      simp only [DragPreview.run, C194.drag, List.replicate_succ, List.map_cons, List.foldl_cons, e] at ih ⊢
      exact ih
  · simp only [C194.totalX]
    induction n with
    | zero => decide +kernel
    | succ n ih =>
      simp only [List.replicate_succ, List.map_cons, List.sum_cons, ih]
      have e : ((n + 1 : Nat) : Rat) = n + 1 := by rw [Rat.natCast_add]; rfl
      rw [e]; grind

/-- Two movements along the grid of ten pixels, at scale 2. -/
example : DragPreview.run 2 ⟨10, 20, 100, 30⟩ (C194.drag [(20, 0), (20, -20)]) = ⟨30, 10, 100, 30⟩ := by decide +kernel

end PySwitch.Props
