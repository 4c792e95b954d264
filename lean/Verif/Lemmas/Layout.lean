import Verif.Spec.Layout
import Verif.Lemmas.Num
namespace PySwitch.Layout
open PySwitch

/-! ### Cutting areas -/

theorem covers_cons (a : Bounds) (l : List Bounds) (px py : Int) :
    covers (a :: l) px py = covers l px py + if a.Has px py then 1 else 0 := by
  unfold covers
  rw [List.countP_cons]
  by_cases h : a.Has px py <;> simp [h]

theorem covers_append (l m : List Bounds) (px py : Int) : covers (l ++ m) px py = covers l px py + covers m px py := by
  unfold covers
  rw [List.countP_append]

theorem cut_partition (b : Bounds) (s : Side) (a : Rat) (h0 : 0 ≤ pyInt a) (h1 : pyInt a ≤ b.extent s) (px py : Int) :
    (if (b.removeFrom s a).1.Has px py then 1 else 0) + (if (b.removeFrom s a).2.Has px py then 1 else 0) =
      if b.Has px py then 1 else 0 := by
  have e : (b.Has px py ↔ (b.removeFrom s a).1.Has px py ∨ (b.removeFrom s a).2.Has px py) ∧
      ¬ ((b.removeFrom s a).1.Has px py ∧ (b.removeFrom s a).2.Has px py) := by
    generalize hn : pyInt a = n at h0 h1
    cases s <;> simp only [Bounds.removeFrom, Bounds.Has, Bounds.extent, hn] at * <;> omega
  by_cases h1 : (b.removeFrom s a).1.Has px py
  · have h2 : ¬ (b.removeFrom s a).2.Has px py := fun h2 => e.2 ⟨h1, h2⟩
    rw [if_pos h1, if_neg h2, if_pos (e.1.2 (.inl h1))]
  · by_cases h2 : (b.removeFrom s a).2.Has px py
    · rw [if_neg h1, if_pos h2, if_pos (e.1.2 (.inr h2))]
    · rw [if_neg h1, if_neg h2, if_neg (fun h => (e.1.1 h).elim h1 h2)]

theorem removeAll_partition : ∀ (cuts : List (Side × Rat)) (b : Bounds), Fits b.width b.height cuts → ∀ px py,
    covers ((removeAll b cuts).1 ++ [(removeAll b cuts).2]) px py = if b.Has px py then 1 else 0 := by
  intro cuts
  induction cuts with
  | nil =>
    intro b _ px py
    simp [removeAll, covers]
  | cons c cuts ih =>
    intro b hf px py
    obtain ⟨s, a⟩ := c
    have hh : 0 ≤ pyInt a ∧ pyInt a ≤ b.extent s ∧ Fits (b.removeFrom s a).2.width (b.removeFrom s a).2.height cuts := by
      cases s <;> exact hf
    simp only [removeAll, List.cons_append, covers_cons]
    rw [ih _ hh.2.2 px py, Nat.add_comm]
    exact cut_partition b s a hh.1 hh.2.1 px py

/-! ### Slots -/

theorem slot_size {n : Nat} {w : Int} (hn : 0 < n) (hw : 0 ≤ w) :
    0 ≤ pyInt ((w : Rat) / (n : Rat)) ∧ n * pyInt ((w : Rat) / (n : Rat)) ≤ w ∧ w < n * pyInt ((w : Rat) / (n : Rat)) + n := by
  have hnr : (0 : Rat) < (n : Rat) := by exact_mod_cast hn
  have hne : (n : Rat) ≠ 0 := by grind
  have h0 : 0 ≤ (w : Rat) / (n : Rat) := rat_div_nonneg hnr (by exact_mod_cast hw)
  have hmul : (n : Rat) * ((w : Rat) / (n : Rat)) = (w : Rat) := by
    rw [Rat.mul_comm, Rat.div_mul_cancel hne]
  refine ⟨pyInt_nonneg h0, ?_, ?_⟩
  · rw [pyInt_of_nonneg h0]
    have h1 := Rat.floor_le (a := (w : Rat) / (n : Rat))
    have h2 : (n : Rat) * ((((w : Rat) / (n : Rat)).floor : Int) : Rat) ≤ (n : Rat) * ((w : Rat) / (n : Rat)) :=
      Rat.mul_le_mul_of_nonneg_left h1 (by grind)
    rw [hmul] at h2
    exact_mod_cast h2
  · rw [pyInt_of_nonneg h0]
    have h1 := Rat.lt_floor (x := (w : Rat) / (n : Rat))
    have h2 : (n : Rat) * ((w : Rat) / (n : Rat)) < (n : Rat) * ((((w : Rat) / (n : Rat)).floor : Int) + 1 : Rat) :=
      Rat.mul_lt_mul_of_pos_left (by grind) hnr
    rw [hmul, Rat.mul_add, Rat.mul_one] at h2
    exact_mod_cast h2

theorem covers_le_one {l : List Bounds} {px py : Int} (h : l.Pairwise (fun a a' => ¬ (a.Has px py ∧ a'.Has px py))) :
    covers l px py ≤ 1 := by
  induction l with
  | nil => simp [covers]
  | cons a l ih =>
    rw [covers_cons]
    have hp := List.pairwise_cons.1 h
    by_cases ha : a.Has px py
    · have : covers l px py = 0 := by
        unfold covers
        rw [List.countP_eq_zero]
        intro x hx
        simp only [decide_eq_true_eq]
        intro hxp
        exact hp.1 x hx ⟨ha, hxp⟩
      simp [this, ha]
    · have := ih hp.2
      simp [ha, this]

theorem sum_const {l : List Int} {s : Int} (h : ∀ x ∈ l, x = s) : l.sum = l.length * s := by
  induction l with
  | nil => simp
  | cons a l ih =>
    have := ih (fun x hx => h x (by simp [hx]))
    rw [List.sum_cons, this, h a (by simp), List.length_cons]
    push_cast
    rw [Int.add_mul]
    omega

theorem slots_fair (d : Dir) (b : Bounds) (hw : 0 ≤ b.width) (hh : 0 ≤ b.height) (n : Nat) :
    FairSplit d b ((List.range n).map (slot d b n)) := by
  by_cases hn : n = 0
  · subst hn
    constructor
    · simp
    · intro px py; simp [covers]
    · simp
    · simp
    · simp
    · simp
  have hn' : 0 < n := by omega
  cases d with
  | horizontal =>
    obtain ⟨s0, s1, s2⟩ := slot_size hn' hw
    generalize hs : pyInt ((b.width : Rat) / (n : Rat)) = s at s0 s1 s2
    have hslot : ∀ i : Nat, slot .horizontal b n i = ⟨b.x + i * s, b.y, s, b.height⟩ := by
      intro i; simp [slot, hs]
    constructor
    · intro a ha px py hp
      obtain ⟨i, hi, rfl⟩ := List.mem_map.1 ha
      rw [List.mem_range] at hi
      rw [hslot] at hp
      have h1 : ((i : Int) + 1) * s ≤ n * s := Int.mul_le_mul_of_nonneg_right (by omega) s0
      have h2 : 0 ≤ (i : Int) * s := Int.mul_nonneg (by omega) s0
      rw [Int.add_mul] at h1
      simp only [Bounds.Has] at hp ⊢
      omega
    · intro px py
      apply covers_le_one
      rw [List.pairwise_map]
      refine List.Pairwise.imp ?_ List.pairwise_lt_range
      intro i j hij hp
      rw [hslot, hslot] at hp
      have h1 : ((i : Int) + 1) * s ≤ j * s := Int.mul_le_mul_of_nonneg_right (by omega) s0
      rw [Int.add_mul] at h1
      simp only [Bounds.Has] at hp
      omega
    · intro a ha a' ha'
      obtain ⟨i, _, rfl⟩ := List.mem_map.1 ha
      obtain ⟨j, _, rfl⟩ := List.mem_map.1 ha'
      simp [hslot]
    · intro a ha
      obtain ⟨i, _, rfl⟩ := List.mem_map.1 ha
      simp [hslot]
    · rw [List.pairwise_map]
      refine List.Pairwise.imp ?_ List.pairwise_lt_range
      intro i j hij
      rw [hslot, hslot]
      have h1 : ((i : Int) + 1) * s ≤ j * s := Int.mul_le_mul_of_nonneg_right (by omega) s0
      rw [Int.add_mul] at h1
      simp only
      exact ⟨fun _ => (by omega), fun h => (by cases h)⟩
    · intro _
      have : (((List.range n).map (slot .horizontal b n)).map (·.width)).sum = n * s := by
        rw [sum_const (s := s)]
        · simp
        · intro x hx
          simp only [List.mem_map] at hx
          obtain ⟨a, ⟨i, _, rfl⟩, rfl⟩ := hx
          simp [hslot]
      rw [this]
      simp only [List.length_map, List.length_range]
      refine ⟨fun _ => by omega, fun h => by cases h⟩
  | vertical =>
    obtain ⟨s0, s1, s2⟩ := slot_size hn' hh
    generalize hs : pyInt ((b.height : Rat) / (n : Rat)) = s at s0 s1 s2
    have hslot : ∀ i : Nat, slot .vertical b n i = ⟨b.x, b.y + i * s, b.width, s⟩ := by
      intro i; simp [slot, hs]
    constructor
    · intro a ha px py hp
      obtain ⟨i, hi, rfl⟩ := List.mem_map.1 ha
      rw [List.mem_range] at hi
      rw [hslot] at hp
      have h1 : ((i : Int) + 1) * s ≤ n * s := Int.mul_le_mul_of_nonneg_right (by omega) s0
      have h2 : 0 ≤ (i : Int) * s := Int.mul_nonneg (by omega) s0
      rw [Int.add_mul] at h1
      simp only [Bounds.Has] at hp ⊢
      omega
    · intro px py
      apply covers_le_one
      rw [List.pairwise_map]
      refine List.Pairwise.imp ?_ List.pairwise_lt_range
      intro i j hij hp
      rw [hslot, hslot] at hp
      have h1 : ((i : Int) + 1) * s ≤ j * s := Int.mul_le_mul_of_nonneg_right (by omega) s0
      rw [Int.add_mul] at h1
      simp only [Bounds.Has] at hp
      omega
    · intro a ha a' ha'
      obtain ⟨i, _, rfl⟩ := List.mem_map.1 ha
      obtain ⟨j, _, rfl⟩ := List.mem_map.1 ha'
      simp [hslot]
    · intro a ha
      obtain ⟨i, _, rfl⟩ := List.mem_map.1 ha
      simp [hslot]
    · rw [List.pairwise_map]
      refine List.Pairwise.imp ?_ List.pairwise_lt_range
      intro i j hij
      rw [hslot, hslot]
      have h1 : ((i : Int) + 1) * s ≤ j * s := Int.mul_le_mul_of_nonneg_right (by omega) s0
      rw [Int.add_mul] at h1
      simp only
      exact ⟨fun h => (by cases h), fun _ => (by omega)⟩
    · intro _
      have : (((List.range n).map (slot .vertical b n)).map (·.height)).sum = n * s := by
        rw [sum_const (s := s)]
        · simp
        · intro x hx
          simp only [List.mem_map] at hx
          obtain ⟨a, ⟨i, _, rfl⟩, rfl⟩ := hx
          simp [hslot]
      rw [this]
      simp only [List.length_map, List.length_range]
      exact ⟨fun h => (by cases h), fun _ => (by omega)⟩

theorem slot_sized (d : Dir) (b : Bounds) (hw : 0 ≤ b.width) (hh : 0 ≤ b.height) {n : Nat} (hn : 0 < n) (i : Nat) :
    0 ≤ (slot d b n i).width ∧ 0 ≤ (slot d b n i).height := by
  cases d with
  | horizontal => exact ⟨(slot_size hn hw).1, hh⟩
  | vertical => exact ⟨hw, (slot_size hn hh).1⟩

/-! ### Placing -/

theorem place_bounds (b : Bounds) (i : Info) (cs : List Elem) : (Elem.place b (.node i cs)).bounds = b := by
  unfold Elem.place
  cases h : i.split <;> simp [Elem.bounds]

theorem place_present (b : Bounds) (i : Info) (cs : List Elem) : (Elem.place b (.node i cs)).present = true := by
  unfold Elem.place
  cases h : i.split <;> simp [Elem.present]

theorem placeAll_areas (d : Dir) (b : Bounds) (n : Nat) : ∀ (cs : List Elem) (k : Nat),
    areas (placeAll d b n k cs) = (List.range' k (cs.countP Elem.present)).map (slot d b n) := by
  intro cs
  induction cs with
  | nil => intro k; simp [placeAll, areas]
  | cons c cs ih =>
    intro k
    cases c with
    | missing =>
      have := ih k
      simp only [areas] at this
      simp [placeAll, areas, Elem.present, this]
    | node i ccs =>
      have := ih (k + 1)
      simp only [areas] at this
      simp only [placeAll, areas, List.filter_cons, place_present, if_true, List.map_cons, place_bounds, this]
      rw [List.countP_cons_of_pos (by rfl), List.range'_succ, List.map_cons]

theorem placeAll_mem (d : Dir) (b : Bounds) (n : Nat) : ∀ (cs : List Elem) (k : Nat), ∀ c ∈ placeAll d b n k cs,
    c = .missing ∨ ∃ j, ∃ c' ∈ cs, c'.present = true ∧ c = Elem.place (slot d b n j) c' := by
  intro cs
  induction cs with
  | nil => intro k c hc; simp [placeAll] at hc
  | cons e cs ih =>
    intro k c hc
    cases e with
    | missing =>
      simp only [placeAll, List.mem_cons] at hc
      rcases hc with rfl | hc
      · exact .inl rfl
      · rcases ih k c hc with h | ⟨j, c', hc', h⟩
        · exact .inl h
        · exact .inr ⟨j, c', by simp [hc'], h⟩
    | node i ccs =>
      simp only [placeAll, List.mem_cons] at hc
      rcases hc with rfl | hc
      · exact .inr ⟨k, .node i ccs, by simp, rfl, rfl⟩
      · rcases ih (k + 1) c hc with h | ⟨j, c', hc', h⟩
        · exact .inl h
        · exact .inr ⟨j, c', by simp [hc'], h⟩

theorem countP_pos_of_mem {cs : List Elem} {c : Elem} (h : c ∈ cs) (hp : c.present = true) : 0 < cs.countP Elem.present := by
  rw [List.countP_pos_iff]
  exact ⟨c, h, hp⟩

theorem place_laidOut : ∀ (e : Elem), Ready e → ∀ b : Bounds, 0 ≤ b.width → 0 ≤ b.height → LaidOut (Elem.place b e) := by
  intro e he
  induction he with
  | missing => intro b _ _; simp only [Elem.place]; exact .missing
  | other i cs hs hc =>
    intro b _ _
    simp only [Elem.place, hs]
    exact .other _ _ rfl hc
  | split i cs d hs hc ih =>
    intro b hw hh
    simp only [Elem.place, hs]
    refine .split _ _ d rfl hw hh ?_ ?_
    · rw [placeAll_areas, ← List.range_eq_range']
      exact slots_fair d b hw hh _
    · intro c hmem
      rcases placeAll_mem d b _ cs 0 c hmem with rfl | ⟨j, c', hc', hp, rfl⟩
      · exact .missing
      · have := slot_sized d b hw hh (countP_pos_of_mem hc' hp) j
        exact ih c' hc' _ this.1 this.2

theorem laidOut_ready : ∀ (e : Elem), LaidOut e → Ready e := by
  intro e he
  induction he with
  | missing => exact .missing
  | other i cs hs hc _ => exact .other i cs hs hc
  | split i cs d hs _ _ _ _ ih => exact .split i cs d hs ih

theorem updateBounds_laidOut (i : Info) (cs : List Elem) (d : Dir) (hs : i.split = some d) (hw : 0 ≤ i.bounds.width)
    (hh : 0 ≤ i.bounds.height) (hc : ∀ c ∈ cs, Ready c) : LaidOut (Elem.node i cs).updateBounds := by
  have := place_laidOut (.node i cs) (.split i cs d hs hc) i.bounds hw hh
  simp only [Elem.place, hs] at this
  simp only [Elem.updateBounds, hs]
  rw [← hs] at this
  exact this

theorem add_same (child : Elem) : ∀ (path : List Nat) (e : Elem),
    (Elem.addAt child path e).bounds = e.bounds ∧ (Elem.addAt child path e).present = e.present := by
  intro path e
  cases path with
  | nil =>
    cases e with
    | missing => exact ⟨rfl, rfl⟩
    | node i cs =>
      simp only [Elem.addAt, Elem.add]
      cases h : i.split with
      | none => exact ⟨rfl, rfl⟩
      | some d => simp [Elem.updateBounds, h, Elem.bounds, Elem.present]
  | cons k path =>
    cases e with
    | missing => exact ⟨rfl, rfl⟩
    | node i cs => exact ⟨rfl, rfl⟩

theorem areas_modify (f : Elem → Elem) (hf : ∀ e : Elem, (f e).bounds = e.bounds ∧ (f e).present = e.present) :
    ∀ (cs : List Elem) (k : Nat), areas (cs.modify k f) = areas cs := by
  intro cs
  induction cs with
  | nil => intro k; simp
  | cons c cs ih =>
    intro k
    cases k with
    | zero =>
      simp only [List.modify_zero_cons, areas, List.filter_cons, (hf c).2]
      by_cases hp : c.present = true <;> simp [hp, (hf c).1]
    | succ k =>
      have := ih k
      simp only [areas] at this
      simp only [List.modify_succ_cons, areas, List.filter_cons]
      by_cases hp : c.present = true <;> simp [hp, this]

theorem mem_modify {α} (f : α → α) : ∀ (l : List α) (k : Nat) (x : α), x ∈ l.modify k f → x ∈ l ∨ ∃ y ∈ l, x = f y := by
  intro l
  induction l with
  | nil => intro k x h; simp at h
  | cons a l ih =>
    intro k x h
    cases k with
    | zero =>
      simp only [List.modify_zero_cons, List.mem_cons] at h
      rcases h with rfl | h
      · exact .inr ⟨a, by simp, rfl⟩
      · exact .inl (by simp [h])
    | succ k =>
      simp only [List.modify_succ_cons, List.mem_cons] at h
      rcases h with rfl | h
      · exact .inl (by simp)
      · rcases ih k x h with h | ⟨y, hy, h⟩
        · exact .inl (by simp [h])
        · exact .inr ⟨y, by simp [hy], h⟩

theorem add_laidOut (child : Elem) (hchild : LaidOut child) : ∀ (path : List Nat) (e : Elem), LaidOut e →
    LaidOut (Elem.addAt child path e) := by
  intro path
  induction path with
  | nil =>
    intro e he
    cases he with
    | missing => exact .missing
    | other i cs hs hc =>
      simp only [Elem.addAt, Elem.add, hs]
      refine .other _ _ hs ?_
      intro c hmem
      rcases List.mem_append.1 hmem with h | h
      · exact hc c h
      · simp only [List.mem_singleton] at h; rw [h]; exact hchild
    | split i cs d hs hw hh hf hc =>
      simp only [Elem.addAt, Elem.add, hs]
      refine updateBounds_laidOut i _ d hs hw hh ?_
      intro c hmem
      rcases List.mem_append.1 hmem with h | h
      · exact laidOut_ready c (hc c h)
      · simp only [List.mem_singleton] at h; rw [h]; exact laidOut_ready child hchild
  | cons k path ih =>
    intro e he
    cases he with
    | missing => exact .missing
    | other i cs hs hc =>
      refine .other _ _ hs ?_
      intro c hmem
      rcases mem_modify _ cs k c hmem with h | ⟨y, hy, rfl⟩
      · exact hc c h
      · exact ih y (hc y hy)
    | split i cs d hs hw hh hf hc =>
      refine .split _ _ d hs hw hh ?_ ?_
      · rw [areas_modify _ (add_same child path)]; exact hf
      · intro c hmem
        rcases mem_modify _ cs k c hmem with h | ⟨y, hy, rfl⟩
        · exact hc c h
        · exact ih y (hc y hy)

/-! ### Cells -/

theorem covers_pos {l : List Bounds} {px py : Int} : 0 < covers l px py ↔ ∃ a ∈ l, a.Has px py := by
  unfold covers
  rw [List.countP_pos_iff]
  simp

theorem cells_laidOut : ∀ (e : Elem), LaidOut e → ∀ px py,
    covers e.cells px py ≤ 1 ∧ (0 < covers e.cells px py → e.present = true ∧ e.bounds.Has px py) := by
  intro e he
  induction he with
  | missing => intro px py; simp [Elem.cells, covers]
  | other i cs hs _ _ =>
    intro px py
    simp only [Elem.cells, hs, Elem.present, Elem.bounds, true_and]
    rw [covers_cons]
    simp only [covers, List.countP_nil]
    by_cases h : i.bounds.Has px py <;> simp [h]
  | split i cs d hs hw hh hf hc ih =>
    intro px py
    simp only [Elem.cells, hs, Elem.present, Elem.bounds, true_and]
    have key : ∀ l : List Elem, (∀ c ∈ l, c ∈ cs) → covers (cellsAll l) px py ≤ covers (areas l) px py := by
      intro l
      induction l with
      | nil => intro _; simp [cellsAll, covers]
      | cons c l ihl =>
        intro hl
        have h1 := ihl (fun x hx => hl x (by simp [hx]))
        obtain ⟨h2, h3⟩ := ih c (hl c (by simp)) px py
        simp only [cellsAll, covers_append]
        by_cases hz : 0 < covers c.cells px py
        · obtain ⟨h4, h5⟩ := h3 hz
          simp only [areas, List.filter_cons, h4, if_true, List.map_cons, covers_cons, if_pos h5]
          simp only [areas] at h1
          omega
        · have : covers (areas l) px py ≤ covers (areas (c :: l)) px py := by
            simp only [areas, List.filter_cons]
            by_cases hp : c.present = true
            · simp only [hp, if_true, List.map_cons, covers_cons]; omega
            · simp [hp]
          omega
    have hk := key cs (fun _ h => h)
    have hd := hf.disjoint px py
    refine ⟨by omega, ?_⟩
    intro hpos
    obtain ⟨a, ha, hp⟩ := covers_pos.1 (show 0 < covers (areas cs) px py by omega)
    exact hf.inside a ha px py hp

end PySwitch.Layout
