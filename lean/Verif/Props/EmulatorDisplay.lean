import Verif.Spec.EmulatorDisplay

/-!
C148: The emulator shows texts, rectangles and LEDs as the firmware sets them.
-/

namespace PySwitch.Props
open PySwitch.EmulatorDisplay PySwitch.EmulatorDisplay.Spec

/-! ### Texts -/

theorem c148_word (blank : Char → Bool) : ∀ (cur w : Text) (r : Text), (∀ c ∈ w, blank c = false) → splitGo blank cur (w ++ r) = splitGo blank (cur ++ w) r
  | cur, [], r, _ => by simp
  | cur, c :: w, r, h => by
    rw [List.cons_append, splitGo, if_neg (by simp [h c (.head _)]), c148_word blank _ w r fun x hx => h x (.tail _ hx)]
    simp

theorem c148_words (blank : Char → Bool) : ∀ (s cur : Text), (∀ c ∈ cur, blank c = false) →
    ∀ w ∈ splitGo blank cur s, w ≠ [] ∧ ∀ c ∈ w, blank c = false
  | [], cur, hc, w, hw => by
    simp only [splitGo] at hw
    by_cases h : cur = []
    · rw [if_pos h] at hw
      simp at hw
    · rw [if_neg h] at hw
      simp only [List.mem_singleton] at hw
      subst hw
      exact ⟨h, hc⟩
  | c :: s, cur, hc, w, hw => by
    simp only [splitGo] at hw
    by_cases hb : blank c = true
    · rw [if_pos hb] at hw
      by_cases h : cur = []
      · rw [if_pos h] at hw
        exact c148_words blank s [] (by simp) w hw
      · rw [if_neg h] at hw
        rcases List.mem_cons.1 hw with rfl | hw
        · exact ⟨h, hc⟩
        · exact c148_words blank s [] (by simp) w hw
    · rw [if_neg hb] at hw
      refine c148_words blank s _ ?_ w hw
      intro x hx
      rcases List.mem_append.1 hx with hx | hx
      · exact hc x hx
      · simp only [List.mem_singleton] at hx
        subst hx
        simpa using hb

/-- A blank character ends a word. -/
theorem c148_blank (blank : Char → Bool) (b : Char) (hb : blank b = true) : ∀ (s cur r : Text),
    splitGo blank cur (s ++ b :: r) = splitGo blank cur s ++ splitGo blank [] r
  | [], cur, r => by
    simp only [List.nil_append, splitGo, if_pos hb]
    by_cases h : cur = []
    · rw [if_pos h, if_pos h]; rfl
    · rw [if_neg h, if_neg h]; rfl
  | c :: s, cur, r => by
    rw [List.cons_append, splitGo, splitGo]
    by_cases hc : blank c = true
    · rw [if_pos hc, if_pos hc]
      by_cases h : cur = []
      · rw [if_pos h, if_pos h, c148_blank blank b hb s [] r]
      · rw [if_neg h, if_neg h, c148_blank blank b hb s [] r]; rfl
    · rw [if_neg hc, if_neg hc, c148_blank blank b hb s _ r]

theorem c148_single (blank : Char → Bool) (w : Text) (hw : w ≠ [] ∧ ∀ c ∈ w, blank c = false) : split blank w = [w] := by
  have := c148_word blank [] w [] hw.2
  rw [List.append_nil] at this
  rw [split, this, List.nil_append, splitGo, if_neg hw.1]

theorem c148_loop (blank : Char → Bool) (hb : blank ' ' = true) (hn : blank '\n' = true) (width : Text → Rat) (max : Rat) :
    ∀ (ws : List Text) (line : Text), (∀ w ∈ ws, w ≠ [] ∧ ∀ c ∈ w, blank c = false) →
      split blank (joinLines (wrapLoop width max line ws)) = split blank line ++ ws
  | [], line, _ => by
    simp only [wrapLoop]
    by_cases h : line = []
    · subst h; rfl
    · rw [if_neg h]; simp [joinLines]
  | w :: ws, line, h => by
    have hw := h w (.head _)
    have hs : split blank (line ++ ' ' :: w) = split blank line ++ [w] := by
      rw [split, c148_blank blank ' ' hb]
      exact congrArg _ (c148_single blank w hw)
    rw [wrapLoop]
    by_cases hc : width (line ++ ' ' :: w) > max
    · rw [if_pos hc]
      have ih := c148_loop blank hb hn width max ws w fun x hx => h x (.tail _ hx)
      rw [c148_single blank w hw] at ih
      cases hl : wrapLoop width max w ws with
      | nil =>
        rw [hl] at ih
        simp [joinLines, split, splitGo] at ih
      | cons m r =>
        rw [hl] at ih
        rw [joinLines, split, c148_blank blank '\n' hn]
        exact congrArg _ ih
    · rw [if_neg hc, c148_loop blank hb hn width max ws _ fun x hx => h x (.tail _ hx), hs]
      simp

/-- Wrapping loses, adds and moves no word of a text, whatever the widths are. -/
theorem C148_words (blank : Char → Bool) (hb : blank ' ' = true) (hn : blank '\n' = true) (width : Text → Rat) (max : Rat) (s : Text) :
    split blank (joinLines (wrap blank width max s)) = split blank s := by
  exact c148_loop blank hb hn width max (split blank s) [] (c148_words blank s [] (by simp))

theorem c148_fits (width : Text → Rat) (max : Rat) (words : List Text) : ∀ (ws : List Text) (line : Text), (∀ w ∈ ws, w ∈ words) →
    (line = [] ∨ width line ≤ max ∨ line ∈ words) → ∀ l ∈ wrapLoop width max line ws, l = [] ∨ width l ≤ max ∨ l ∈ words
  | [], line, _, hl, l, h => by
    simp only [wrapLoop] at h
    by_cases hx : line = []
    · rw [if_pos hx] at h
      simp at h
    · rw [if_neg hx] at h
      simp only [List.mem_singleton] at h
      exact h ▸ hl
  | w :: ws, line, hs, hl, l, h => by
    rw [wrapLoop] at h
    by_cases hc : width (line ++ ' ' :: w) > max
    · rw [if_pos hc] at h
      rcases List.mem_cons.1 h with rfl | h
      · exact hl
      · exact c148_fits width max words ws w (fun x hx => hs x (.tail _ hx)) (.inr (.inr (hs w (.head _)))) l h
    · rw [if_neg hc] at h
      exact c148_fits width max words ws _ (fun x hx => hs x (.tail _ hx)) (.inr (.inl (Rat.not_lt.1 hc))) l h

/-- No line is wider than the maximum, unless it is one word. -/
theorem C148_width (blank : Char → Bool) (width : Text → Rat) (max : Rat) (hm : 0 ≤ max) (h0 : width [] = 0) (s : Text) (l : Text)
    (hl : l ∈ wrap blank width max s) : width l ≤ max ∨ l ∈ split blank s := by
  rcases c148_fits width max (split blank s) _ [] (fun w hw => hw) (.inl rfl) l hl with h | h | h
  · subst h
    exact .inl (h0 ▸ hm)
  · exact .inl h
  · exact .inr h

theorem c148_prefix (width : Text → Rat) (max : Rat) : ∀ (ws : List Text) (line : Text) (m : Text) (r : List Text), line ≠ [] →
    wrapLoop width max line ws = m :: r → line <+: m
  | [], line, m, r, hl, h => by
    rw [wrapLoop, if_neg hl] at h
    simp only [List.cons.injEq] at h
    exact h.1 ▸ List.prefix_rfl
  | w :: ws, line, m, r, hl, h => by
    rw [wrapLoop] at h
    by_cases hc : width (line ++ ' ' :: w) > max
    · rw [if_pos hc] at h
      simp only [List.cons.injEq] at h
      exact h.1 ▸ List.prefix_rfl
    · rw [if_neg hc] at h
      exact (List.prefix_append _ _).trans (c148_prefix width max ws _ m r (by simp) h)

theorem c148_full (width : Text → Rat) (max : Rat) (words : List Text) (hw : ∀ w ∈ words, w ≠ []) : ∀ (ws : List Text) (line : Text),
    (∀ w ∈ ws, w ∈ words) → Full width max words (wrapLoop width max line ws)
  | [], line, _ => by
    rw [wrapLoop]
    by_cases hx : line = []
    · rw [if_pos hx]; trivial
    · rw [if_neg hx]; trivial
  | w :: ws, line, hs => by
    rw [wrapLoop]
    by_cases hc : width (line ++ ' ' :: w) > max
    · rw [if_pos hc]
      have ih := c148_full width max words hw ws w fun x hx => hs x (.tail _ hx)
      cases hl : wrapLoop width max w ws with
      | nil => trivial
      | cons m r =>
        rw [hl] at ih
        exact ⟨⟨w, hs w (.head _), c148_prefix width max ws w m r (hw w (hs w (.head _))) hl, hc⟩, ih⟩
    · rw [if_neg hc]
      exact c148_full width max words hw ws _ fun x hx => hs x (.tail _ hx)

/-- Lines are only broken where the next word does not fit. -/
theorem C148_full (blank : Char → Bool) (width : Text → Rat) (max : Rat) (s : Text) : Full width max (split blank s) (wrap blank width max s) :=
  c148_full width max _ (fun w hw => (c148_words blank s [] (by simp) w hw).1) _ [] fun w hw => hw

/-- Three words, with widths of one for each character. -/
example : wrap (fun c => c == ' ') (fun t => t.length) 6 "ab cd efg".toList = [" ab cd".toList, "efg".toList] := by decide +kernel

/-- The first word has a blank before it, which is measured and shown. When the word does not fit together with it (though the word alone does), there is an
empty line above it. -/
theorem C148_blank_witness :
    wrap (fun c => c == ' ') (fun t => t.length) 6 "ab".toList = [" ab".toList] ∧
      wrap (fun c => c == ' ') (fun t => t.length) 6 "abcdef".toList = [[], "abcdef".toList] := by decide +kernel

theorem c148_lines_go : ∀ (l cur r : Text), '\n' ∉ l → linesGo cur (l ++ r) = linesGo (cur ++ l) r
  | [], cur, r, _ => by simp
  | c :: l, cur, r, h => by
    simp only [List.mem_cons, not_or] at h
    rw [List.cons_append, linesGo, if_neg (Ne.symm h.1), c148_lines_go l _ r h.2]
    simp

/-- All lines of a wrapped text are drawn, also empty ones before others. -/
theorem C148_lines : ∀ (ls : List Text), (∀ l ∈ ls, '\n' ∉ l) → ls.getLast? ≠ some [] → splitLines (joinLines ls) = ls
  | [], _, _ => rfl
  | [l], h, hl => by
    have := c148_lines_go l [] [] (h l (.head _))
    rw [List.append_nil] at this
    rw [joinLines, splitLines, this, List.nil_append, linesGo, if_neg (by simpa using hl)]
  | l :: m :: r, h, hl => by
    have ih := C148_lines (m :: r) (fun x hx => h x (.tail _ hx)) (by simpa using hl)
    rw [joinLines, splitLines, c148_lines_go l [] _ (h l (.head _)), List.nil_append, linesGo, if_pos rfl]
    exact congrArg _ ih

example : splitLines (joinLines ["a".toList, [], "b c".toList]) = ["a".toList, [], "b c".toList] := by decide +kernel

/-- The lines of a label lie below each other at equal distances, in a block whose place is given by the anchor: the upper end of the first line and the base line of
the last one are its ends (shifted by the offset of the font), and each line is placed by its own width. -/
theorem C148_place (l : Label) (n i : Nat) (hi : i + 1 < n) (w w' : Rat) :
    (l.place n (i + 1) w').2 - (l.place n i w).2 = l.size + l.lineSpacing ∧
      (l.place n 0 w).2 - l.size = l.posY + l.y - l.anchorY * l.height n - l.size * (15 / 100) ∧
      (l.place n (n - 1) w).2 = l.posY + l.y + (1 - l.anchorY) * l.height n - l.size * (15 / 100) ∧
      (l.place n i w).1 + l.anchorX * w = l.posX + l.x := by
  obtain ⟨m, rfl⟩ : ∃ m, n = m + 1 := ⟨n - 1, by omega⟩
  simp only [Label.place, Label.height, Nat.add_sub_cancel, Rat.natCast_add]
  generalize l.lineSpacing = ls
  refine ⟨?_, ?_, ?_, ?_⟩ <;> grind

/-! ### Rectangles -/

mutual
theorem c148_render (px py dx dy : Int) (c : Color) : ∀ n : Node,
    (n.render dx dy).foldl (fun c r => if covers r.1 px py then r.2 else c) c = (top (px - dx) (py - dy) n).getD c
  | .rect x y w h fill => by
    simp only [Node.render, List.foldl_cons, List.foldl_nil, top]
    by_cases hc : x ≤ px - dx ∧ px - dx < x + w ∧ y ≤ py - dy ∧ py - dy < y + h
    · rw [if_pos hc, if_pos]
      · rfl
      · simp only [covers, Bool.and_eq_true, decide_eq_true_eq]
        omega
    · rw [if_neg hc, if_neg]
      · rfl
      · simp only [covers, Bool.and_eq_true, decide_eq_true_eq]
        omega
  | .group x y items => by
    rw [Node.render, c148_renderAll, top]
    congr 2 <;> omega
theorem c148_renderAll (px py dx dy : Int) (c : Color) : ∀ ns : List Node,
    (Node.renderAll dx dy ns).foldl (fun c r => if covers r.1 px py then r.2 else c) c = (topAll (px - dx) (py - dy) ns).getD c
  | [] => rfl
  | n :: ns => by
    rw [Node.renderAll, List.foldl_append, c148_renderAll px py dx dy _ ns, c148_render px py dx dy c n, topAll]
    cases topAll (px - dx) (py - dy) ns <;> rfl
end

/-- Each pixel of the emulated display shows the topmost rectangle there, for groups at any depth, and black where there is none. -/
theorem C148_pixel (splash : List Node) (px py : Int) : paint splash px py = (topAll px py splash).getD (0, 0, 0) := by
  have := c148_renderAll px py 0 0 (0, 0, 0) splash
  simpa [paint] using this

example : paint [.rect 0 0 10 10 (1, 2, 3), .group 5 5 [.group 1 1 [.rect 0 0 2 2 (9, 9, 9)], .rect 0 0 1 1 (7, 7, 7)]] 6 7 = (9, 9, 9) := by decide +kernel

/-! ### LEDs -/

theorem c148_mono {f : Rat → Rat} (hf : Gamma f) {a b : Rat} (ha : 0 ≤ a) (h : a ≤ b) : f a ≤ f b := by
  by_cases e : a = b
  · rw [e]; exact Rat.le_refl
  · exact Rat.le_of_lt (hf.strict a b ha (by grind))

theorem c148_component (f : Rat → Rat) (v : Nat) :
    component f v = if f ((v : Rat) * 3 / 255) * 255 ≤ 255 then f ((v : Rat) * 3 / 255) * 255 else 255 := by
  simp only [component]
  generalize f ((v : Rat) * 3 / 255) * 255 = x
  by_cases h1 : x < 256
  · rw [if_pos h1]
  · rw [if_neg h1, if_pos (by grind), if_neg (by grind)]

theorem c148_arg (v : Nat) : (0 : Rat) ≤ (v : Rat) * 3 / 255 := by
  have : (0 : Rat) ≤ (v : Rat) := Rat.natCast_nonneg
  grind

theorem c148_arg_lt {v w : Nat} (h : v < w) : (v : Rat) * 3 / 255 < (w : Rat) * 3 / 255 := by
  have : (v : Rat) < (w : Rat) := Rat.natCast_lt_natCast.2 h
  grind

/-- A LED is shown as off if and only if its color is black, and each component is shown dark if and only if it is zero. -/
theorem C148_off (f : Rat → Rat) (hf : Gamma f) (c : Color) :
    (ledShown f c = .transparent ↔ c = (0, 0, 0)) ∧ ∀ v, component f v = 0 ↔ v = 0 := by
  constructor
  · unfold ledShown
    by_cases h : c = (0, 0, 0)
    · rw [if_pos h]; simp [h]
    · rw [if_neg h]; simp [h]
  · intro v
    rw [c148_component]
    constructor
    · intro h
      rcases Nat.eq_zero_or_pos v with hv | hv
      · exact hv
      · have h1 := hf.strict 0 ((v : Rat) * 3 / 255) Rat.le_refl (by
          have := c148_arg_lt hv
          have e : ((0 : Nat) : Rat) * 3 / 255 = 0 := by decide +kernel
          rwa [e] at this)
        rw [hf.zero] at h1
        by_cases hx : f ((v : Rat) * 3 / 255) * 255 ≤ 255
        · rw [if_pos hx] at h
          grind
        · rw [if_neg hx] at h
          exact absurd h (by decide)
    · rintro rfl
      have : ((0 : Nat) : Rat) * 3 / 255 = 0 := by decide +kernel
      rw [this, hf.zero]
      decide +kernel

/-- Brighter components are shown at least as bright, within the range of the browser; up to a third of the full brightness they are shown brighter. It is missing
that this holds for higher values (see `C148_bright_witness`). -/
theorem C148_order_partial (f : Rat → Rat) (hf : Gamma f) (v w : Nat) (h : v < w) :
    0 ≤ component f v ∧ component f v ≤ component f w ∧ component f w ≤ 255 ∧ (w ≤ 85 → component f v < component f w) := by
  have hv := c148_arg v
  have hlt := c148_arg_lt h
  have h1 := hf.strict _ _ hv hlt
  have h0 := c148_mono hf Rat.le_refl hv
  rw [hf.zero] at h0
  rw [c148_component, c148_component]
  have hw : w ≤ 85 → f ((w : Rat) * 3 / 255) ≤ 1 := by
    intro hw
    rw [← hf.one]
    refine c148_mono hf (c148_arg w) ?_
    have : (w : Rat) ≤ ((85 : Nat) : Rat) := Rat.natCast_le_natCast.2 hw
    have e : ((85 : Nat) : Rat) = 85 := rfl
    rw [e] at this
    grind
  generalize f ((v : Rat) * 3 / 255) = a at h0 h1 ⊢
  generalize f ((w : Rat) * 3 / 255) = b at h1 hw ⊢
  refine ⟨?_, ?_, ?_, ?_⟩
  · by_cases hx : a * 255 ≤ 255
    · rw [if_pos hx]; grind
    · rw [if_neg hx]; decide
  · by_cases hx : a * 255 ≤ 255
    · rw [if_pos hx]
      by_cases hy : b * 255 ≤ 255
      · rw [if_pos hy]; grind
      · rw [if_neg hy]; exact hx
    · rw [if_neg hx, if_neg (by grind)]; exact Rat.le_refl
  · by_cases hy : b * 255 ≤ 255
    · rw [if_pos hy]; exact hy
    · rw [if_neg hy]; exact Rat.le_refl
  · intro h85
    have := hw h85
    rw [if_pos (by grind), if_pos (by grind)]
    grind

/-- There are such functions. -/
example : Gamma fun x => x := ⟨rfl, rfl, fun _ _ _ h => h⟩

/-- All components from a third of the full brightness on are shown alike, so that white and a dark gray look the same. -/
theorem C148_bright_witness (f : Rat → Rat) (hf : Gamma f) (v : Nat) (h : 85 ≤ v) : component f v = 255 := by
  rw [c148_component]
  have h1 : f 1 ≤ f ((v : Rat) * 3 / 255) := by
    refine c148_mono hf (by decide) ?_
    have : ((85 : Nat) : Rat) ≤ (v : Rat) := Rat.natCast_le_natCast.2 h
    have e : ((85 : Nat) : Rat) = 85 := rfl
    rw [e] at this
    grind
  rw [hf.one] at h1
  by_cases hx : f ((v : Rat) * 3 / 255) * 255 ≤ 255
  · rw [if_pos hx]
    grind
  · rw [if_neg hx]

/-- Each LED shows the color which was set last for it; setting one changes no other. -/
theorem C148_leds (f : Rat → Rat) (n : Nat) (sets : List (Nat × Color)) (i : Nat) (c : Color) (hi : i < n) :
    (ledRun f n (sets ++ [(i, c)]))[i]? = some (some (ledShown f c)) ∧
      ∀ j, j ≠ i → (ledRun f n (sets ++ [(i, c)]))[j]? = (ledRun f n sets)[j]? := by
  have hlen : (ledRun f n sets).length = n := by
    have : ∀ (l : List (Option Shown)), (sets.foldl (fun l s => l.set s.1 (some (ledShown f s.2))) l).length = l.length := by
      induction sets with
      | nil => intro l; rfl
      | cons s r ih => intro l; rw [List.foldl_cons, ih, List.length_set]
    rw [ledRun, this, List.length_replicate]
  have e : ledRun f n (sets ++ [(i, c)]) = (ledRun f n sets).set i (some (ledShown f c)) := by
    rw [ledRun, List.foldl_append]
    rfl
  rw [e]
  refine ⟨?_, fun j hj => List.getElem?_set_ne (Ne.symm hj)⟩
  rw [List.getElem?_set_self (by omega)]

end PySwitch.Props
