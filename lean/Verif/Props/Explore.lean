import Verif.Spec.Explore
/-
Property C58: explore mode.
-/
namespace PySwitch.Props
open PySwitch PySwitch.Explore PySwitch.Spec

private theorem initSwitches_eq (c : Explore.Config) (ports : List Port) (done : List Explore.Switch) :
    c.initSwitches done ports =
      done ++ ((ports.filter (·.ok)).zipIdx done.length).map (fun p => c.initSwitch p.1.name p.2) := by
  induction ports generalizing done with
  | nil => simp [Explore.Config.initSwitches]
  | cons p ps ih =>
    unfold Explore.Config.initSwitches
    by_cases h : p.ok = true
    · rw [if_pos h, ih, List.filter_cons_of_pos h]
      simp [List.zipIdx_cons]
    · rw [if_neg h, ih, List.filter_cons_of_neg h]

/-- C58. Every port of the board which can be a switch has exactly one, in the order of the ports: the i-th of them has number i,
steps forward if i is even and back otherwise, and has the i-th group of pixels. -/
theorem C58_ports (c : Explore.Config) (ports : List Port) :
    (c.initSwitches [] ports).map (·.name) = (ports.filter (·.ok)).map (·.name) ∧
    ∀ i s, (c.initSwitches [] ports)[i]? = some s → s.index = i ∧ s.step = (if i % 2 = 0 then 1 else -1) ∧
      s.pixels = (if c.leds then (List.range c.perSwitch).map (fun j => i * c.perSwitch + j) else []) := by
  rw [initSwitches_eq]
  simp only [List.nil_append, List.length_nil]
  constructor
  · rw [List.map_map]
    have : ∀ (l : List Port) (n : Nat), (l.zipIdx n).map ((fun s : Explore.Switch => s.name) ∘ fun p => c.initSwitch p.1.name p.2)
        = l.map (·.name) := by
      intro l
      induction l with
      | nil => intro n; rfl
      | cons a l ih => intro n; simp only [List.zipIdx_cons, List.map_cons, ih]; rfl
    exact this _ 0
  · intro i s h
    simp only [List.getElem?_map, List.getElem?_zipIdx, Option.map_map, Option.map_eq_some_iff] at h
    obtain ⟨p, hp, rfl⟩ := h
    simp only [Function.comp, Explore.Config.initSwitch, Explore.Config.pixels, Nat.zero_add]
    cases c.leds <;> simp

/-- C58. No two switches share a pixel, each has as many as configured, and all of them exist for the LED driver. -/
theorem C58_pixels (c : Explore.Config) (ports : List Port) (hl : c.leds = true) (i j : Nat) (a b : Explore.Switch)
    (ha : (c.initSwitches [] ports)[i]? = some a) (hb : (c.initSwitches [] ports)[j]? = some b) :
    a.pixels.length = c.perSwitch ∧ (∀ x ∈ a.pixels, x < c.numPixels ports) ∧
    (i ≠ j → ∀ x ∈ a.pixels, x ∉ b.pixels) := by
  have hp := (C58_ports c ports).2
  have hpa := (hp i a ha).2.2
  have hpb := (hp j b hb).2.2
  rw [hl, if_pos rfl] at hpa hpb
  have hlen : i < ports.length := by
    obtain ⟨h, -⟩ := List.getElem?_eq_some_iff.1 ha
    rw [initSwitches_eq] at h
    simp at h
    exact Nat.lt_of_lt_of_le h (List.length_filter_le _ _)
  refine ⟨by simp [hpa], ?_, ?_⟩
  · intro x hx
    rw [hpa, List.mem_map] at hx
    obtain ⟨k, hk, rfl⟩ := hx
    rw [List.mem_range] at hk
    unfold Explore.Config.numPixels
    have : (i + 1) * c.perSwitch ≤ ports.length * c.perSwitch := Nat.mul_le_mul_right _ hlen
    rw [Nat.succ_mul] at this
    omega
  · intro hne x hx hx'
    rw [hpa, List.mem_map] at hx
    rw [hpb, List.mem_map] at hx'
    obtain ⟨k, hk, rfl⟩ := hx
    obtain ⟨l, hl', he⟩ := hx'
    rw [List.mem_range] at hk hl'
    apply hne
    rcases Nat.lt_trichotomy i j with h | h | h
    · have : (i + 1) * c.perSwitch ≤ j * c.perSwitch := Nat.mul_le_mul_right _ h
      rw [Nat.succ_mul] at this
      omega
    · exact h
    · have : (j + 1) * c.perSwitch ≤ i * c.perSwitch := Nat.mul_le_mul_right _ h
      rw [Nat.succ_mul] at this
      omega

/-- The switches are numbered and step by one. -/
private def Wf (sw : List Explore.Switch) : Prop :=
  ∀ (i : Nat) (s : Explore.Switch), sw[i]? = some s → s.index = i ∧ (s.step = 1 ∨ s.step = -1)

private theorem wf_init (c : Explore.Config) (ports : List Port) : Wf (c.initSwitches [] ports) := by
  intro i s h
  have := (C58_ports c ports).2 i s h
  refine ⟨this.1, ?_⟩
  rw [this.2.1]
  split <;> simp

private theorem returned_eq (sw : List Explore.Switch) (h : Wf sw) (i : Nat) (s : Explore.Switch) (hi : sw[i]? = some s) :
    returned sw i = some s.pixels := by
  have key : ∀ (l : List Explore.Switch) (off : Nat) (r : Option (List Nat)),
      (∀ j t, l[j]? = some t → t.index = off + j) →
      l.foldl (fun ret s => if (s.index : Int) = ((i : Nat) : Int) then some s.pixels else ret) r =
        if off ≤ i then (match l[i - off]? with | some s => some s.pixels | none => r) else r := by
    intro l
    induction l with
    | nil => intro off r _; simp
    | cons a l ih =>
      intro off r hw
      have ha := hw 0 a rfl
      rw [List.foldl_cons, ih (off + 1) _ (fun j t ht => by have := hw (j + 1) t (by simpa using ht); omega)]
      by_cases h1 : off = i
      · subst h1
        rw [if_pos (by omega : off ≤ off), if_neg (by omega)]
        simp only [Nat.sub_self, List.getElem?_cons_zero]
        rw [if_pos (by omega)]
      · rw [if_neg (by omega : ¬ ((a.index : Int) = ((i : Nat) : Int)))]
        by_cases h2 : off ≤ i
        · rw [if_pos h2, if_pos (by omega), show i - off = (i - (off + 1)) + 1 by omega, List.getElem?_cons_succ]
        · rw [if_neg h2, if_neg (by omega)]
  unfold returned
  rw [key sw 0 none (fun j t ht => by have := (h j t ht).1; omega), if_pos (Nat.zero_le i), Nat.sub_zero, hi]

private theorem lights_lit (sw : List Explore.Switch) (h : Wf sw) (i : Nat) (hi : i < sw.length) : OnlyLit sw.length i (lights sw i) := by
  refine ⟨by simp [lights], ?_, ?_⟩
  · obtain ⟨s, hs⟩ : ∃ s, sw[i]? = some s := ⟨sw[i], by rw [List.getElem?_eq_getElem hi]⟩
    simp only [lights, List.getElem?_map, hs, Option.map_some, (h i s hs).1, if_pos]
  · intro j hj hne
    obtain ⟨s, hs⟩ : ∃ s, sw[j]? = some s := ⟨sw[j], by rw [List.getElem?_eq_getElem hj]⟩
    simp only [lights, List.getElem?_map, hs, Option.map_some, (h j s hs).1, Option.some.injEq]
    rw [if_neg (by omega)]

private theorem nextIndex_eq (n : Nat) (i st : Int) :
    nextIndex n i st = if i + st ≥ n then 0 else if i + st < 0 then (n : Int) - 1 else i + st := by
  unfold nextIndex
  simp only
  by_cases h : i + st ≥ n
  · simp [h]
  · simp [h]

private theorem nextIndex_mod (n : Nat) (i : Int) (st : Int) (h0 : 0 ≤ i) (hn : i < n) (hs : st = 1 ∨ st = -1) :
    nextIndex n i st = (i + st) % n := by
  rw [nextIndex_eq]
  rcases hs with rfl | rfl
  · by_cases h : i + 1 = n
    · rw [if_pos (by omega), h]; simp
    · rw [if_neg (by omega), if_neg (by omega), Int.emod_eq_of_lt (by omega) (by omega)]
  · by_cases h : i = 0
    · subst h
      rw [if_neg (by omega), if_pos (by omega)]
      have : ((0 : Int) + -1) % n = (0 + -1 + n) % n := by simp
      rw [this, Int.emod_eq_of_lt (by omega) (by omega)]
      omega
    · rw [if_neg (by omega), if_neg (by omega), Int.emod_eq_of_lt (by omega) (by omega)]

private theorem mark_shown (st : Explore.State) (k : Nat) : (mark st k).shown = st.shown ∧ (mark st k).lights = st.lights := by
  unfold mark
  split <;> (simp only; split <;> exact ⟨rfl, rfl⟩)

/-- One press, from any index in range. -/
private theorem press_props (sw : List Explore.Switch) (h : Wf sw) (st : Explore.State) (k : Nat) (hk : k < sw.length) (i : Nat)
    (hi : i < sw.length) (hx : nextIndex sw.length st.shown (sw[k]).step = i) :
    (press sw st k).1.shown = i ∧ OnlyLit sw.length i (press sw st k).1.lights ∧
    (press sw st k).2 = (sw[i]?).map (·.pixels) := by
  unfold press
  rw [List.getElem?_eq_getElem hk]
  simp only
  obtain ⟨h1, h2⟩ := mark_shown { st with shown := nextIndex sw.length st.shown (sw[k]).step,
                                          lights := lights sw (nextIndex sw.length st.shown (sw[k]).step) } k
  rw [h1, h2, hx]
  refine ⟨rfl, lights_lit sw h i hi, ?_⟩
  rw [List.getElem?_eq_getElem hi, returned_eq sw h i sw[i] (List.getElem?_eq_getElem hi)]
  rfl

private theorem run_props (sw : List Explore.Switch) (h : Wf sw) (ks : List Nat) (hk : ∀ k ∈ ks, k < sw.length) (st : Explore.State) (i : Nat)
    (hi : i < sw.length) (hs : st.shown = i) (hl : OnlyLit sw.length i st.lights) :
    ∃ j, ((j : Nat) : Int) = ((i : Int) + steps sw ks) % sw.length ∧ j < sw.length ∧ (run sw st ks).2.shown = j ∧
      OnlyLit sw.length j (run sw st ks).2.lights ∧
      ∀ r, (run sw st ks).1.getLast? = some r → r = (sw[j]?).map (·.pixels) := by
  induction ks generalizing st i with
  | nil =>
    refine ⟨i, ?_, hi, hs, hl, by simp [run]⟩
    simp only [steps, List.map_nil, List.sum_nil, Int.add_zero]
    rw [Int.emod_eq_of_lt (by omega) (by omega)]
  | cons k ks ih =>
    have hk0 := hk k (by simp)
    have hstep := (h k sw[k] (List.getElem?_eq_getElem hk0)).2
    have hm : 0 ≤ ((i : Int) + sw[k].step) % sw.length := Int.emod_nonneg _ (by omega)
    have hm' : ((i : Int) + sw[k].step) % sw.length < sw.length := Int.emod_lt_of_pos _ (by omega)
    obtain ⟨m, hmm⟩ : ∃ m : Nat, ((m : Nat) : Int) = ((i : Int) + sw[k].step) % sw.length :=
      ⟨(((i : Int) + sw[k].step) % sw.length).toNat, by omega⟩
    have hmlt : m < sw.length := by omega
    obtain ⟨p1, p2, p3⟩ := press_props sw h st k hk0 m hmlt
      (by rw [hs, nextIndex_mod _ _ _ (by omega) (by omega) hstep, hmm])
    obtain ⟨j, j1, j2, j3, j4, j5⟩ := ih (fun x hx => hk x (by simp [hx])) (press sw st k).1 m hmlt p1 p2
    refine ⟨j, ?_, j2, j3, j4, ?_⟩
    · rw [j1, hmm, steps, steps, List.map_cons, List.sum_cons, List.getElem?_eq_getElem hk0]
      simp [Int.add_assoc]
    · intro r hr
      simp only [run] at hr
      cases hks : ks with
      | nil =>
        subst hks
        simp only [run, List.getLast?_singleton, Option.some.injEq] at hr
        simp only [steps, List.map_nil, List.sum_nil, Int.add_zero] at j1
        rw [Int.emod_eq_of_lt (by omega) (by omega)] at j1
        have : j = m := by omega
        rw [← hr, p3, this]
      | cons a l =>
        apply j5
        rw [List.getLast?_cons] at hr
        have hne : (run sw (press sw st k).1 ks).1.getLast? ≠ none := by
          rw [hks]; simp [run]
        cases hx : (run sw (press sw st k).1 ks).1.getLast? with
        | none => exact absurd hx hne
        | some y => rw [hx] at hr; simpa using hr

/-- C58. After every history of at least one press, exactly one switch is lit, it is an existing one, and the pixels reported
last are its. The first press lights the first switch or (if its own number is odd) the last one; every further press steps by
one, forward or back, around the circle of all switches. -/
theorem C58_one (c : Explore.Config) (ports : List Port) (k : Nat) (ks : List Nat)
    (hk : ∀ x ∈ k :: ks, x < (c.initSwitches [] ports).length) :
    let sw := c.initSwitches [] ports
    let r := run sw (initial sw) (k :: ks)
    ∃ i : Nat, (i : Int) = ((if k % 2 = 0 then 0 else (sw.length : Int) - 1) + steps sw ks) % sw.length ∧ i < sw.length ∧
      OnlyLit sw.length i r.2.lights ∧ r.1.getLast? = some ((sw[i]?).map (·.pixels)) := by
  intro sw r
  have h : Wf sw := wf_init c ports
  have hk0 : k < sw.length := hk k (by simp)
  have hst : sw[k].step = (if k % 2 = 0 then 1 else -1) :=
    ((C58_ports c ports).2 k sw[k] (List.getElem?_eq_getElem hk0)).2.1
  obtain ⟨m, hm, hmlt⟩ : ∃ m : Nat, ((m : Nat) : Int) = (if k % 2 = 0 then 0 else (sw.length : Int) - 1) ∧ m < sw.length := by
    by_cases h2 : k % 2 = 0
    · exact ⟨0, by rw [if_pos h2]; rfl, by omega⟩
    · exact ⟨sw.length - 1, by rw [if_neg h2]; omega, by omega⟩
  have hn : nextIndex sw.length (initial sw).shown sw[k].step = m := by
    rw [hst, hm, nextIndex_eq, show (initial sw).shown = -1 from rfl]
    by_cases h2 : k % 2 = 0
    · rw [if_pos h2, if_pos h2, if_neg (by omega), if_neg (by omega)]; rfl
    · rw [if_neg h2, if_neg h2, if_neg (by omega), if_pos (by omega)]
  obtain ⟨p1, p2, p3⟩ := press_props sw h (initial sw) k hk0 m hmlt hn
  obtain ⟨j, j1, j2, j3, j4, j5⟩ := run_props sw h ks (fun x hx => hk x (by simp [hx])) (press sw (initial sw) k).1 m hmlt p1 p2
  refine ⟨j, by rw [j1, hm], j2, j4, ?_⟩
  show (run sw (initial sw) (k :: ks)).1.getLast? = _
  simp only [run]
  rw [List.getLast?_cons]
  cases hx : (run sw (press sw (initial sw) k).1 ks).1.getLast? with
  | some y => rw [j5 y hx]; rfl
  | none =>
    cases ks with
    | nil =>
      simp only [steps, List.map_nil, List.sum_nil, Int.add_zero] at j1
      rw [Int.emod_eq_of_lt (by omega) (by omega)] at j1
      have : j = m := by omega
      rw [p3, this]; rfl
    | cons a l => simp [run] at hx

/-- C58. By pressing the first switch again and again, every switch gets lit: after `i` further presses, it is switch `i`, and then
it starts over. -/
theorem C58_cycle (c : Explore.Config) (ports : List Port) (m : Nat) (hn : 0 < (c.initSwitches [] ports).length) :
    let sw := c.initSwitches [] ports
    OnlyLit sw.length (m % sw.length) (run sw (initial sw) (List.replicate (m + 1) 0)).2.lights := by
  intro sw
  obtain ⟨i, h1, h2, h3, -⟩ := C58_one c ports 0 (List.replicate m 0) (by
    intro x hx
    simp only [List.mem_cons, List.mem_replicate] at hx
    rcases hx with rfl | ⟨-, rfl⟩ <;> exact hn)
  have hs : steps sw (List.replicate m 0) = m := by
    have h0 : (sw[0]?.map (·.step)).getD 0 = 1 := by
      rw [List.getElem?_eq_getElem hn]
      have := ((C58_ports c ports).2 0 sw[0] (List.getElem?_eq_getElem hn)).2.1
      simpa using this
    unfold steps
    rw [List.map_replicate, h0]
    simp
  rw [show steps (c.initSwitches [] ports) (List.replicate m 0) = m from hs] at h1
  simp only [Nat.zero_mod, if_true, Int.zero_add] at h1
  have : i = m % sw.length := by
    have h1' : (i : Int) = ((m % sw.length : Nat) : Int) := by rw [h1, Int.natCast_emod]
    exact Int.ofNat_inj.1 h1'
  rw [← this]
  exact h3

/-- C58. After every history the label of the switch pressed last is marked red, those of all others pressed before are light, and
all others dark. -/
theorem C58_marker (sw : List Explore.Switch) (ks : List Nat) (hk : ∀ k ∈ ks, k < sw.length) (j : Nat) (hj : j < sw.length) :
    (run sw (initial sw) ks).2.markers[j]? =
      some (if ks.getLast? = some j then .red else if j ∈ ks then .light else .dark) := by
  have key : ∀ (ks done : List Nat) (st : Explore.State), (∀ k ∈ ks, k < sw.length) →
      st.markers.length = sw.length → st.latest = done.getLast? →
      (∀ j, j < sw.length → st.markers[j]? =
        some (if done.getLast? = some j then .red else if j ∈ done then .light else .dark)) →
      ∀ j, j < sw.length → (run sw st ks).2.markers[j]? =
        some (if (done ++ ks).getLast? = some j then .red else if j ∈ done ++ ks then .light else .dark) := by
    intro ks
    induction ks with
    | nil => intro done st _ _ _ h j hj; simpa [run] using h j hj
    | cons k ks ih =>
      intro done st hk hl hlat h j hj
      have hk0 := hk k (by simp)
      have hp : (press sw st k).1.markers =
          ((match st.latest with | some j => st.markers.set j .light | none => st.markers).set k .red) ∧
          (press sw st k).1.latest = some k := by
        unfold press
        rw [List.getElem?_eq_getElem hk0]
        simp only [mark]
        cases hst : st.latest with
        | none => simp only; rw [if_pos (by omega)]; exact ⟨rfl, rfl⟩
        | some j => simp only; rw [if_pos (by rw [List.length_set]; omega)]; exact ⟨rfl, rfl⟩
      simp only [run]
      have := ih (done ++ [k]) (press sw st k).1 (fun x hx => hk x (by simp [hx])) ?_ ?_ ?_ j hj
      · simpa using this
      · rw [hp.1, List.length_set]
        cases st.latest <;> simp [hl]
      · rw [hp.2]; simp
      · intro i hi
        rw [hp.1, List.getElem?_set]
        by_cases hki : k = i
        · subst hki
          rw [if_pos rfl, if_pos (by cases st.latest <;> simp [hl, hi])]
          simp
        · rw [if_neg hki, if_neg (by simp [hki])]
          rw [hlat]
          cases hd : done.getLast? with
          | none =>
            simp only
            rw [h i hi, hd]
            simp [show i ≠ k from fun e => hki e.symm]
          | some l =>
            simp only
            rw [List.getElem?_set]
            by_cases hli : l = i
            · subst hli
              rw [if_pos rfl, if_pos (by omega), if_pos]
              simp only [List.mem_append]
              exact .inl (List.mem_of_getLast? hd)
            · rw [if_neg hli, h i hi, hd]
              simp [hli, show i ≠ k from fun e => hki e.symm]
  have := key ks [] (initial sw) hk (by simp [initial]) rfl (by
    intro j hj
    simp [initial, List.getElem?_eq_getElem hj]) j hj
  simpa using this

/-- C58. The labels are laid out in order, in rows of the configured number of columns; only the last row may be shorter. -/
theorem C58_labels (columns n : Nat) :
    (rows columns n).flatten = List.range n ∧ (∀ r ∈ rows columns n, 0 < r.length ∧ r.length ≤ max columns 1) ∧
    ∀ r ∈ (rows columns n).dropLast, r.length = max columns 1 := by
  induction n with
  | zero => simp [rows]
  | succ n ih =>
    have he : rows columns (n + 1) = addLabel columns (rows columns n) n := by
      unfold rows; rw [List.range_succ, List.foldl_append]; rfl
    obtain ⟨h1, h2, h3⟩ := ih
    rw [he]
    unfold addLabel
    cases hr : (rows columns n).getLast? with
    | none =>
      rw [List.getLast?_eq_none_iff] at hr
      rw [hr] at h1
      simp only [hr, List.nil_append, List.mem_singleton, forall_eq]
      refine ⟨?_, ⟨by simp, by simp; omega⟩, by simp⟩
      rw [List.range_succ, ← h1]
      simp
    | some row =>
      simp only
      obtain ⟨init, hin⟩ : ∃ init, rows columns n = init ++ [row] := by
        rw [List.getLast?_eq_some_iff] at hr
        exact hr
      rw [hin] at h1 h2 h3 ⊢
      simp only [List.dropLast_concat] at h3
      have hrow := h2 row (by simp)
      by_cases hc : row.length ≥ columns
      · rw [if_pos hc]
        refine ⟨?_, ?_, ?_⟩
        · rw [List.flatten_append, h1, List.range_succ]; simp
        · intro r hr'
          rw [List.mem_append, List.mem_singleton] at hr'
          rcases hr' with hr' | rfl
          · exact h2 r hr'
          · exact ⟨by simp, by simp; omega⟩
        · intro r hr'
          rw [List.dropLast_concat, List.mem_append, List.mem_singleton] at hr'
          rcases hr' with hr' | rfl
          · exact h3 r hr'
          · omega
      · rw [if_neg hc]
        simp only [List.dropLast_concat]
        refine ⟨?_, ?_, h3⟩
        · rw [List.range_succ, ← h1]; simp
        · intro r hr'
          rw [List.mem_append, List.mem_singleton] at hr'
          rcases hr' with hr' | rfl
          · exact h2 r (by simp [hr'])
          · simp only [List.length_append, List.length_singleton]
            omega

example : let sw := Explore.Config.initSwitches {} [] [⟨"GP1", true⟩, ⟨"GP10", false⟩, ⟨"GP2", true⟩, ⟨"GP25", true⟩]
    sw.map (·.name) = ["GP1", "GP2", "GP25"] ∧
    (run sw (initial sw) [0, 0, 1, 1]).1 = [some [0, 1, 2], some [3, 4, 5], some [0, 1, 2], some [6, 7, 8]] ∧
    (run sw (initial sw) [0, 2]).2.lights = [.blue, .white, .blue] ∧
    (run sw (initial sw) [0, 2]).2.markers = [.light, .dark, .red] := by decide +kernel

example : rows 5 12 = [[0, 1, 2, 3, 4], [5, 6, 7, 8, 9], [10, 11]] := by decide

end PySwitch.Props
