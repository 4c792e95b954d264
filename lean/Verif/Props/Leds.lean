import Verif.Lemmas.Leds
/-
Properties C33 and C34: the LEDs of the switches.
-/
namespace PySwitch.Props
open PySwitch.Leds PySwitch.Leds.Spec

/-- The segments of an action, `[]` in case of an exception (which does not occur, see `C33_partition`). -/
def segs (A : Actions) (sw : Switch) (a : Nat) : List Nat :=
  match segments A sw a with
  | .ok l => l
  | .error _ => []

/-- C33: the showing actions of a switch divide its LEDs among them: taken in order, their segments are exactly
the LEDs 0, 1, 2, … of the switch. No exception occurs. -/
theorem C33_partition (A : Actions) (sw : Switch) (hn : sw.actions.Nodup) (hs : showing A sw ≠ []) :
    (showing A sw).flatMap (segs A sw) = List.range sw.pixels.length ∧
      ∀ a ∈ showing A sw, ∃ l, segments A sw a = .ok l := by
  by_cases hp : sw.pixels = []
  · have he : ∀ a, segments A sw a = .ok [] := by
      intro a
      unfold segments
      rw [if_pos (by simp [hp])]
    constructor
    · have : ∀ l : List Nat, l.flatMap (segs A sw) = [] := by
        intro l
        simp [List.flatMap_eq_nil_iff, segs, he]
      rw [this, hp]
      rfl
    · intro a _; exact ⟨_, he a⟩
  have ok := segments_ok A sw hp hn
  have hlen : 0 < sw.pixels.length := List.length_pos_iff.2 hp
  constructor
  · generalize hl : showing A sw = l at *
    have hmap : l.flatMap (segs A sw) = ((List.range l.length).map (fun i =>
        (if l.length = 1 then List.range sw.pixels.length
          else if l.length < sw.pixels.length then
            (if i = 0 then List.range (sw.pixels.length - l.length + 1)
              else [sw.pixels.length - l.length + 1 + i - 1])
          else if i < sw.pixels.length then [i] else []))).flatten := by
      rw [List.flatMap_def]
      congr 1
      apply List.ext_getElem
      · simp
      · intro i h1 h2
        simp only [List.length_map] at h1
        simp only [List.getElem_map, List.getElem_range]
        have := ok i l[i] (List.getElem?_eq_getElem h1)
        rw [segs, this]
    rw [hmap]
    have hpos : 0 < l.length := List.length_pos_iff.2 hs
    by_cases h1 : l.length = 1
    · simp [h1]
    · by_cases h2 : l.length < sw.pixels.length
      · simp only [if_neg h1, if_pos h2]
        obtain ⟨k, hk⟩ : ∃ k, l.length = k + 1 := ⟨l.length - 1, by omega⟩
        rw [hk, List.range_succ_eq_map (n := k), List.map_cons, List.flatten_cons, if_pos rfl, List.map_map]
        obtain ⟨m, hm⟩ : ∃ m, sw.pixels.length = m + 1 + k := ⟨sw.pixels.length - (k + 1), by omega⟩
        have hd : m + 1 + k - (k + 1) = m := by omega
        rw [hm, hd, List.range_add (n := m + 1)]
        congr 1
        have hf : ∀ i, ((fun i => if i = 0 then List.range (m + 1) else [m + 1 + i - 1]) ∘ Nat.succ) i = [m + 1 + i] := by
          intro i
          simp only [Function.comp, Nat.succ_eq_add_one]
          rw [if_neg (by omega)]
          congr 1
        rw [List.map_congr_left (fun i _ => hf i)]
        induction List.range k with
        | nil => rfl
        | cons x xs ih => simp [ih]
      · simp only [if_neg h1, if_neg h2]
        have hsum : l.length = sw.pixels.length + (l.length - sw.pixels.length) := by omega
        rw [hsum, List.range_add, List.map_append, List.flatten_append]
        have e1 : ((List.range sw.pixels.length).map (fun i => if i < sw.pixels.length then [i] else [])).flatten
            = List.range sw.pixels.length := by
          have : (List.range sw.pixels.length).map (fun i => if i < sw.pixels.length then [i] else [])
              = (List.range sw.pixels.length).map (fun i => [i]) := by
            apply List.map_congr_left
            intro i hi
            rw [if_pos (List.mem_range.1 hi)]
          rw [this]
          induction List.range sw.pixels.length with
          | nil => rfl
          | cons x xs ih => simp [ih]
        rw [e1, List.map_map]
        have e2 : ((List.range (l.length - sw.pixels.length)).map
            ((fun i => if i < sw.pixels.length then [i] else []) ∘ fun x => sw.pixels.length + x)).flatten = [] := by
          rw [List.flatten_eq_nil_iff]
          intro x hx
          simp only [List.mem_map, Function.comp] at hx
          obtain ⟨y, -, rfl⟩ := hx
          rw [if_neg (by omega)]
        rw [e2, List.append_nil]
  · intro a ha
    obtain ⟨i, hi⟩ := List.mem_iff_getElem?.1 ha
    exact ⟨_, ok i a hi⟩

/-- C33: different showing actions never share a LED, and all segments are LEDs of the switch. -/
theorem C33_disjoint (A : Actions) (sw : Switch) (hn : sw.actions.Nodup) :
    (∀ a ∈ showing A sw, ∀ s ∈ segs A sw a, s < sw.pixels.length) ∧
    (∀ a ∈ showing A sw, ∀ b ∈ showing A sw, a ≠ b → ∀ s, s ∈ segs A sw a → s ∉ segs A sw b) := by
  by_cases hs : showing A sw = []
  · simp [hs]
  have hp := (C33_partition A sw hn hs).1
  constructor
  · intro a ha s hsa
    have : s ∈ (showing A sw).flatMap (segs A sw) := List.mem_flatMap.2 ⟨a, ha, hsa⟩
    rw [hp] at this
    exact List.mem_range.1 this
  · intro a ha b hb hab s hsa hsb
    have hnd : ((showing A sw).flatMap (segs A sw)).Nodup := by rw [hp]; exact List.nodup_range
    rw [List.nodup_iff_count] at hnd
    have hc := hnd s
    rw [List.count_flatMap] at hc
    obtain ⟨i, hi⟩ := List.mem_iff_getElem?.1 ha
    obtain ⟨j, hj⟩ := List.mem_iff_getElem?.1 hb
    have key : ∀ (l : List Nat) (f : Nat → Nat), a ∈ l → b ∈ l → f a + f b ≤ (l.map f).sum := by
      intro l f
      induction l with
      | nil => simp
      | cons x l ih =>
        intro h1 h2
        have hmem : ∀ y ∈ l, f y ≤ (l.map f).sum := by
          intro y hy
          clear ih h1 h2
          induction l with
          | nil => simp at hy
          | cons z l ih =>
            simp only [List.map_cons, List.sum_cons]
            rcases List.mem_cons.1 hy with rfl | hy
            · omega
            · have := ih hy; omega
        simp only [List.map_cons, List.sum_cons]
        rcases List.mem_cons.1 h1 with h1 | h1
        · rcases List.mem_cons.1 h2 with h2 | h2
          · exact absurd (h1.trans h2.symm) hab
          · have := hmem b h2; subst h1; omega
        · rcases List.mem_cons.1 h2 with h2 | h2
          · have := hmem a h1; subst h2; omega
          · have := ih h1 h2; omega
    have hk := key (showing A sw) (List.count s ∘ segs A sw) ha hb
    have c1 : 1 ≤ (List.count s ∘ segs A sw) a := List.count_pos_iff.2 hsa
    have c2 : 1 ≤ (List.count s ∘ segs A sw) b := List.count_pos_iff.2 hsb
    omega

/-- C33: if there are not more showing actions than LEDs, every one of them gets a LED. -/
theorem C33_nonempty (A : Actions) (sw : Switch) (hn : sw.actions.Nodup)
    (hle : (showing A sw).length ≤ sw.pixels.length) (a : Nat) (ha : a ∈ showing A sw) : segs A sw a ≠ [] := by
  obtain ⟨i, hi⟩ := List.mem_iff_getElem?.1 ha
  have hlt := (List.getElem?_eq_some_iff.1 hi).1
  have hp : sw.pixels ≠ [] := by
    intro h
    rw [h] at hle
    simp only [List.length_nil] at hle
    omega
  rw [segs, segments_ok A sw hp hn i a hi]
  simp only
  split
  · simp [List.range_eq_nil, hp]
  · split
    · split <;> simp
    · rw [if_pos (by omega)]; simp

/-- C33: actions which are disabled or do not use the LEDs have no segments. -/
theorem C33_others (A : Actions) (sw : Switch) (a : Nat) (h : A.usesLeds a = false ∨ A.enabled a = false) :
    segments A sw a = .ok [] := by
  unfold segments
  rw [if_pos]
  rcases h with h | h <;> simp [h]

example : showing ⟨fun _ => true, fun i => i != 5⟩ { pixels := [3, 4, 5], colors := [], brightnesses := [], actions := [7, 5, 8] } = [7, 8]
    ∧ segs ⟨fun _ => true, fun i => i != 5⟩ { pixels := [3, 4, 5], colors := [], brightnesses := [], actions := [7, 5, 8] } 7 = [0, 1]
    ∧ segs ⟨fun _ => true, fun i => i != 5⟩ { pixels := [3, 4, 5], colors := [], brightnesses := [], actions := [7, 5, 8] } 8 = [2] := by
  decide

/-- C34: setting the brightnesses of a switch with valid colors and brightnesses between 0 and 1 succeeds, shows
floor(color × brightness) on each LED of the switch, and leaves all other LEDs of the strip as they are. -/
theorem C34_write (leds : Strip) (sw : Switch) (hl : Lit leds sw) (bs : List Rat)
    (hb : bs.length = sw.pixels.length) (h01 : ∀ b ∈ bs, 0 ≤ b ∧ b ≤ 1)
    (hv : ∀ c ∈ sw.colors, Color.Valid c) :
    ∃ leds' sw', setBrightnesses leds sw bs = (leds', sw', none) ∧ leds'.length = leds.length ∧
      (∀ q, q ∉ sw.pixels → leds'[q]? = leds[q]?) ∧
      (sw.pixels ≠ [] → sw' = { sw with brightnesses := bs }) ∧
      (∀ i, i < sw.pixels.length → Shows leds' sw' i) ∧
      (∀ q ∈ sw.pixels, ∃ c, leds'[q]? = some c ∧ Color.Valid c) := by
  by_cases hp : sw.pixels = []
  · exact ⟨leds, sw, by simp [setBrightnesses, hp], rfl, fun _ _ => rfl, fun h => absurd hp h,
      by simp [hp], by simp [hp]⟩
  obtain ⟨leds', a1, a2, a3, a4⟩ := writeLoop_spec sw bs hl.colors hb hl.nodup sw.pixels.length 0 leds (by omega) hl.inStrip
  have hsc : ∀ (c : Color) (b : Rat), Color.Valid c → 0 ≤ b ∧ b ≤ 1 →
      c.scale b = ⟨(c.r * b : Rat).floor, (c.g * b : Rat).floor, (c.b * b : Rat).floor⟩ ∧ Color.Valid (c.scale b) := by
    intro c b hc hb
    obtain ⟨⟨r1, r2⟩, ⟨g1, g2⟩, ⟨b1, b2⟩⟩ := hc
    simp only [Color.scale, pyInt_floor _ _ r1 hb.1, pyInt_floor _ _ g1 hb.1, pyInt_floor _ _ b1 hb.1, true_and]
    have := floor_range c.r b r1 hb.1 hb.2
    have := floor_range c.g b g1 hb.1 hb.2
    have := floor_range c.b b b1 hb.1 hb.2
    simp only [Color.Valid]
    omega
  refine ⟨leds', { sw with brightnesses := bs }, ?_, a2, ?_, fun _ => rfl, ?_, ?_⟩
  · simp only [setBrightnesses, if_neg hp, a1]
    rw [if_neg (by simp [hb])]
  · intro q hq
    exact a3 q (fun j _ hj => hq (List.mem_of_getElem? hj))
  · intro i hi
    have e1 := List.getElem?_eq_getElem hi
    have e2 := List.getElem?_eq_getElem (l := sw.colors) (i := i) (by rw [hl.colors]; exact hi)
    have e3 := List.getElem?_eq_getElem (l := bs) (i := i) (by omega)
    refine ⟨_, _, _, e1, e2, e3, ?_⟩
    rw [a4 i _ _ _ (by omega) e1 e2 e3, (hsc _ _ (hv _ (List.getElem_mem _)) (h01 _ (List.getElem_mem _))).1]
  · intro q hq
    obtain ⟨i, e1⟩ := List.mem_iff_getElem?.1 hq
    have hi := (List.getElem?_eq_some_iff.1 e1).1
    have e2 := List.getElem?_eq_getElem (l := sw.colors) (i := i) (by rw [hl.colors]; exact hi)
    have e3 := List.getElem?_eq_getElem (l := bs) (i := i) (by omega)
    exact ⟨_, a4 i _ _ _ (by omega) e1 e2 e3, (hsc _ _ (hv _ (List.getElem_mem _)) (h01 _ (List.getElem_mem _))).2⟩

theorem foldl_set_get {α : Type} (c : α) (segs : List Nat) (l : List α) :
    (segs.foldl (fun cs s => cs.set s c) l).length = l.length ∧
    ∀ i : Nat, (segs.foldl (fun cs s => cs.set s c) l)[i]? = if i ∈ segs ∧ i < l.length then some c else l[i]? := by
  induction segs generalizing l with
  | nil => simp
  | cons s segs ih =>
    obtain ⟨h1, h2⟩ := ih (l.set s c)
    refine ⟨by simpa using h1, ?_⟩
    intro i
    rw [List.foldl_cons, h2, List.length_set]
    by_cases hi : i < l.length
    · by_cases hs : i = s
      · subst hs
        by_cases hm : i ∈ segs <;> simp [hm, hi]
      · by_cases hm : i ∈ segs
        · simp [hm, hi]
        · simp [hm, hs, List.getElem?_set_ne (Ne.symm hs)]
    · simp [hi]

/-- C34: an action which sets its color and brightness changes its own LEDs only. All other LEDs of the strip,
also the ones of the same switch used by other actions, stay as they are; its own ones show the color with that
brightness. -/
theorem C34_own_leds (A : Actions) (leds : Strip) (sw : Switch) (hl : Lit leds sw)
    (hshow : ∀ i, i < sw.pixels.length → Shows leds sw i)
    (hv : ∀ c ∈ sw.colors, Color.Valid c) (h01 : ∀ b ∈ sw.brightnesses, 0 ≤ b ∧ b ≤ 1)
    (a : Nat) (l : List Nat) (hs : segments A sw a = .ok l) (c : Color) (hc : Color.Valid c) (b : Rat)
    (hb : 0 ≤ b ∧ b ≤ 1) :
    ∃ sw₁ leds' sw₂, setSwitchColor A sw a (.single c) = .ok sw₁ ∧
      setSwitchBrightness A leds sw₁ a b = (leds', sw₂, none) ∧ leds'.length = leds.length ∧
      (∀ q, (∀ i ∈ l, sw.pixels[i]? ≠ some q) → leds'[q]? = leds[q]?) ∧
      (∀ i ∈ l, ∀ q, sw.pixels[i]? = some q →
        leds'[q]? = some ⟨(c.r * b : Rat).floor, (c.g * b : Rat).floor, (c.b * b : Rat).floor⟩) := by
  cases l with
  | nil =>
    exact ⟨sw, leds, sw, by simp [setSwitchColor, hs], by simp [setSwitchBrightness, hs], rfl, fun _ _ => rfl, by simp⟩
  | cons s l =>
    have hpn : sw.pixels ≠ [] := by
      intro h
      unfold segments at hs
      rw [if_pos (by simp [h])] at hs
      simp at hs
    obtain ⟨f1, f2⟩ := foldl_set_get c (s :: l) sw.colors
    obtain ⟨g1, g2⟩ := foldl_set_get b (s :: l) sw.brightnesses
    let sw₁ : Switch := { sw with colors := (s :: l).foldl (fun cs s => cs.set s c) sw.colors }
    have hs₁ : segments A sw₁ a = .ok (s :: l) := hs
    have e1 : setSwitchColor A sw a (.single c) = .ok sw₁ := by
      simp only [setSwitchColor, hs]
      rw [show fill (s :: l) (.single c) sw.colors = (s :: l).foldl (fun cs s => cs.set s c) sw.colors from rfl, setColors,
        if_neg (by rw [f1, hl.colors]; simp)]
    have hl₁ : Lit leds sw₁ := ⟨f1.trans hl.colors, hl.brightnesses, hl.nodup, hl.inStrip⟩
    have hv₁ : ∀ x ∈ sw₁.colors, Color.Valid x := by
      intro x hx
      obtain ⟨i, hi⟩ := List.mem_iff_getElem?.1 hx
      have := f2 i
      rw [show sw₁.colors[i]? = some x from hi] at this
      split at this
      · simp only [Option.some.injEq] at this; rw [this]; exact hc
      · exact hv x (List.mem_of_getElem? this.symm)
    have hb₁ : ∀ x ∈ (s :: l).foldl (fun bs s => bs.set s b) sw.brightnesses, 0 ≤ x ∧ x ≤ 1 := by
      intro x hx
      obtain ⟨i, hi⟩ := List.mem_iff_getElem?.1 hx
      have := g2 i
      rw [hi] at this
      split at this
      · simp only [Option.some.injEq] at this; rw [this]; exact hb
      · exact h01 x (List.mem_of_getElem? this.symm)
    obtain ⟨leds', sw₂, w1, w2, w3, w4, w5, -⟩ := C34_write leds sw₁ hl₁ _ (g1.trans hl.brightnesses) hb₁ hv₁
    have w4 := w4 hpn
    refine ⟨sw₁, leds', sw₂, e1, ?_, w2, ?_, ?_⟩
    · simp only [setSwitchBrightness, hs₁]
      exact w1
    · intro q hq
      by_cases hmem : q ∈ sw.pixels
      · obtain ⟨i, hi⟩ := List.mem_iff_getElem?.1 hmem
        have hlt := (List.getElem?_eq_some_iff.1 hi).1
        have hil : i ∉ s :: l := fun h => hq i h hi
        obtain ⟨p, x, y, x1, x2, x3, x4⟩ := w5 i hlt
        obtain ⟨p', x', y', y1, y2, y3, y4⟩ := hshow i hlt
        rw [w4] at x1 x2 x3
        have z1 : sw.pixels[i]? = some p := x1
        have z2 := f2 i
        rw [if_neg (by simp [hil]), show ((s :: l).foldl (fun cs s => cs.set s c) sw.colors)[i]? = some x from x2, y2] at z2
        have z3 := g2 i
        rw [if_neg (by simp [hil]), show ((s :: l).foldl (fun bs s => bs.set s b) sw.brightnesses)[i]? = some y from x3, y3] at z3
        simp only [Option.some.injEq] at z2 z3
        rw [hi] at z1 y1
        simp only [Option.some.injEq] at z1 y1
        rw [z1, x4, ← z1, y1, y4, z2, z3]
      · exact w3 q hmem
    · intro i hi q hq
      have hlt := (List.getElem?_eq_some_iff.1 hq).1
      obtain ⟨p, x, y, x1, x2, x3, x4⟩ := w5 i hlt
      rw [w4] at x1 x2 x3
      have z1 : sw.pixels[i]? = some p := x1
      have z2 := f2 i
      rw [if_pos ⟨hi, by rw [hl.colors]; exact hlt⟩, show ((s :: l).foldl (fun cs s => cs.set s c) sw.colors)[i]? = some x from x2] at z2
      have z3 := g2 i
      rw [if_pos ⟨hi, by rw [hl.brightnesses]; exact hlt⟩, show ((s :: l).foldl (fun bs s => bs.set s b) sw.brightnesses)[i]? = some y from x3] at z3
      simp only [Option.some.injEq] at z2 z3
      rw [hq] at z1
      simp only [Option.some.injEq] at z1
      rw [z1, x4, z2, z3]

/-- C34. Setting one color sets it for all LEDs of the switch, and changes nothing else. -/
theorem C34_color (sw : Switch) (hl : sw.colors.length = sw.pixels.length) (c : Color) :
    setColor sw c = { sw with colors := List.replicate sw.pixels.length c } := by
  have key : ∀ (n : Nat) (l : List Color), n ≤ l.length →
      (List.range n).foldl (fun cs i => cs.set i c) l = List.replicate n c ++ l.drop n := by
    intro n
    induction n with
    | zero => intro l _; simp
    | succ n ih =>
      intro l hn
      rw [List.range_succ, List.foldl_append, ih l (by omega)]
      simp only [List.foldl_cons, List.foldl_nil]
      rw [List.set_append_right _ _ (by simp)]
      simp only [List.length_replicate, Nat.sub_self]
      rw [List.drop_eq_getElem_cons (by omega), List.set_cons_zero, List.replicate_succ']
      simp
  unfold setColor
  rw [key _ _ (by omega), List.drop_eq_nil_of_le (by omega), List.append_nil]

example : setColor { pixels := [0, 1, 2], colors := [⟨1, 1, 1⟩, ⟨2, 2, 2⟩, ⟨3, 3, 3⟩], brightnesses := [1, 1, 1] } ⟨9, 8, 7⟩ =
    { pixels := [0, 1, 2], colors := [⟨9, 8, 7⟩, ⟨9, 8, 7⟩, ⟨9, 8, 7⟩], brightnesses := [1, 1, 1] } := by decide

/-- C34: a wrong number of values raises, and neither the strip nor the switch is changed. -/
theorem C34_wrong_number (leds : Strip) (sw : Switch) (hp : sw.pixels ≠ []) (bs : List Rat) (cs : List Color) :
    (bs.length ≠ sw.pixels.length → setBrightnesses leds sw bs = (leds, sw, some .count)) ∧
    (cs.length ≠ sw.pixels.length → setColors sw cs = .error .count) ∧
    (cs.length = sw.pixels.length → setColors sw cs = .ok { sw with colors := cs }) := by
  refine ⟨?_, ?_, ?_⟩
  · intro h; simp [setBrightnesses, hp, h]
  · intro h; simp [setColors, h]
  · intro h; simp [setColors, h]

/-- C34: dimming keeps colors valid and never makes them brighter. -/
theorem C34_dim (c : Color) (f : Rat) (hc : Color.Valid c) (hf : 0 ≤ f ∧ f ≤ 1) :
    ∃ d, dimColor (.single c) f = .single d ∧ Color.Valid d ∧ d.r ≤ c.r ∧ d.g ≤ c.g ∧ d.b ≤ c.b := by
  obtain ⟨⟨r1, r2⟩, ⟨g1, g2⟩, ⟨b1, b2⟩⟩ := hc
  refine ⟨_, rfl, ?_⟩
  simp only [Color.scale, pyInt_floor _ _ r1 hf.1, pyInt_floor _ _ g1 hf.1, pyInt_floor _ _ b1 hf.1]
  have := floor_range c.r f r1 hf.1 hf.2
  have := floor_range c.g f g1 hf.1 hf.2
  have := floor_range c.b f b1 hf.1 hf.2
  simp only [Color.Valid]
  omega

/-- Two switches on a strip of seven LEDs. -/
def exampleSwitch : Switch :=
  { pixels := [3, 4, 5], colors := [⟨255, 0, 10⟩, ⟨0, 255, 10⟩, ⟨100, 50, 25⟩], brightnesses := [0, 0, 0] }

example : Lit (List.replicate 7 ⟨1, 1, 1⟩) exampleSwitch :=
  ⟨rfl, rfl, by decide, by decide⟩
example : (setBrightnesses (List.replicate 7 ⟨1, 1, 1⟩) exampleSwitch [1, 1/2, 1/4]).1
    = [⟨1, 1, 1⟩, ⟨1, 1, 1⟩, ⟨1, 1, 1⟩, ⟨255, 0, 10⟩, ⟨0, 127, 5⟩, ⟨25, 12, 6⟩, ⟨1, 1, 1⟩] := by decide +kernel

end PySwitch.Props
