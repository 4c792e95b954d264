import Verif.Lemmas.Devices
import Verif.Props.Leds
import Verif.Model.Tuner
/-
Properties of the device tables and of the LEDs of all switches together: C99 (LEDs), C100 (pins), C101 (strobe order).
-/
namespace PySwitch.Props
open PySwitch.Leds PySwitch.Devices PySwitch.Devices.Spec

namespace C99

theorem table (d : List Input) (hd : IsDevice d) :
    (∀ i ∈ d, i.pixels.Nodup ∧ (i.kind ≠ .switch → i.pixels = [])) ∧
    (∀ i ∈ d, ∀ j ∈ d, i ≠ j → ∀ q ∈ i.pixels, q ∉ j.pixels) := by
  rcases hd with rfl | rfl | rfl <;> exact ⟨by decide, by decide⟩

end C99

open C99

/-- C99. For every configuration of different inputs of one of the devices the LED strip has all LEDs the switches refer
to and ends with one of them, and no LED is referred to twice, neither by two switches nor by one. -/
theorem C99_wiring (d inputs : List Input) (h : Config d inputs) :
    Wiring (strip inputs).length (pixelsOf inputs) ∧
    ((strip inputs).length = 0 ∨ ∃ k, (strip inputs).length - 1 ∈ pixelsOf inputs k) := by
  obtain ⟨t1, t2⟩ := table d h.device
  obtain ⟨_, n2, n3⟩ := foldl_inputs inputs 0
  have hlen : (strip inputs).length = numPixels inputs := by simp [strip]
  rw [hlen]
  have hmem : ∀ k q, q ∈ pixelsOf inputs k → ∃ i, inputs[k]? = some i ∧ q ∈ i.pixels := by
    intro k q hq
    unfold pixelsOf at hq
    cases hi : inputs[k]? with
    | none => simp [hi] at hq
    | some i => exact ⟨i, rfl, by simpa [hi] using hq⟩
  refine ⟨⟨?_, ?_, ?_⟩, ?_⟩
  · intro k
    unfold pixelsOf
    cases hi : inputs[k]? with
    | none => simp
    | some i => exact (t1 i (h.known i (List.mem_of_getElem? hi))).1
  · intro k q hq
    obtain ⟨i, hi, hq⟩ := hmem k q hq
    exact n2 i (List.mem_of_getElem? hi) q hq
  · intro j k hjk q hq hq'
    obtain ⟨i, hi, hq⟩ := hmem j q hq
    obtain ⟨i', hi', hq'⟩ := hmem k q hq'
    have hne : i ≠ i' := by
      rintro rfl
      obtain ⟨l1, e1⟩ := List.getElem?_eq_some_iff.1 hi
      obtain ⟨l2, e2⟩ := List.getElem?_eq_some_iff.1 hi'
      exact hjk ((List.getElem_inj (h₀ := l1) (h₁ := l2) h.different).1 (e1.trans e2.symm))
    exact t2 i (h.known i (List.mem_of_getElem? hi)) i' (h.known i' (List.mem_of_getElem? hi')) hne q hq hq'
  · rcases n3 with n3 | ⟨i, hi, p, hp, n3⟩
    · exact .inl n3
    · right
      obtain ⟨k, hk⟩ := List.mem_iff_getElem?.1 hi
      refine ⟨k, ?_⟩
      have : numPixels inputs = p + 1 := n3
      simp only [pixelsOf, hk, this, Option.map_some, Option.getD_some, Nat.add_sub_cancel]
      exact hp

/-- C99. The LEDs of a switch, its colors and brightnesses, and the exceptions which occur for it depend on what has been
done with this switch only: they are the same as if all operations with other switches had not happened. -/
theorem C99_isolated (n : Nat) (px : Nat → List Nat) (hw : Wiring n px) (os : List Op) (hc : CreatedWith px os)
    (leds : Strip) (k : Nat) :
    (∀ q ∈ px k, (run ⟨leds, []⟩ os).1.leds[q]? = (run ⟨leds, []⟩ (only k os)).1.leds[q]?) ∧
    (run ⟨leds, []⟩ os).1.get k = (run ⟨leds, []⟩ (only k os)).1.get k ∧
    errors k (run ⟨leds, []⟩ os).2 = (run ⟨leds, []⟩ (only k os)).2 := by
  obtain ⟨a, b⟩ := run_same hw.disjoint k os hc ⟨leds, []⟩ ⟨leds, []⟩ (fun _ _ h => by simp [Panel.get] at h)
    ⟨rfl, rfl, fun _ _ => rfl⟩
  exact ⟨a.leds.2, a.get, b⟩

namespace C99

theorem creation_with (acts : Nat → List Nat) (inputs : List Input) :
    CreatedWith (pixelsOf inputs) (creation acts 0 inputs) := by
  intro k ps as hm
  obtain ⟨j, i, h1, _, h3⟩ := creation_target acts inputs 0 _ hm
  simp only [Nat.zero_add, Op.create.injEq] at h3
  obtain ⟨rfl, rfl, _⟩ := h3
  simp [pixelsOf, h1]

theorem fits_nil (px : Nat → List Nat) (leds : Strip) : Fits px ⟨leds, []⟩ := fun _ _ h => by simp [Panel.get] at h

theorem scale_shown (c : Color) (b : Rat) (hc : Leds.Spec.Color.Valid c) (hb : 0 ≤ b) : c.scale b = shown c b := by
  obtain ⟨⟨r1, _⟩, ⟨g1, _⟩, ⟨b1, _⟩⟩ := hc
  simp only [Color.scale, pyInt_floor _ _ r1 hb, pyInt_floor _ _ g1 hb, pyInt_floor _ _ b1 hb, shown]

theorem setColor_get (sw : Switch) (c : Color) (h : sw.colors.length = sw.pixels.length) (i : Nat)
    (hi : i < sw.pixels.length) : (setColor sw c).colors[i]? = some c := by
  have := (foldl_set_get c (List.range sw.pixels.length) sw.colors).2 i
  simp only [setColor]
  rw [this, if_pos ⟨by simpa using hi, by omega⟩]

/-- One color and one brightness for all LEDs of a switch. -/
theorem write_all (n : Nat) (px : Nat → List Nat) (hw : Wiring n px) (k : Nat) (leds : Strip) (hn : leds.length = n)
    (sw : Switch) (hf : Fit (px k) sw) (c : Color) (hc : Leds.Spec.Color.Valid c) (b : Rat) (hb : 0 ≤ b) :
    (setBrightness leds (setColor sw c) b).2.2 = none ∧
    ∀ q ∈ px k, (setBrightness leds (setColor sw c) b).1[q]? = some (shown c b) := by
  have hf' := hf.setColor c
  have hpx : (setColor sw c).pixels = px k := hf'.pixels
  by_cases hp : px k = []
  · rw [setBrightness, setBrightnesses, if_pos (hpx.trans hp)]
    simp [hp]
  · obtain ⟨leds', a1, _, _, a4⟩ := writeLoop_spec (setColor sw c) ((setColor sw c).pixels.map (fun _ => b))
      (by rw [hf'.colors, hpx]) (by simp) (by rw [hpx]; exact hw.nodup k) (setColor sw c).pixels.length 0 leds (by omega)
      (by rw [hpx, hn]; exact hw.exists_ k)
    have : setBrightness leds (setColor sw c) b =
        (leds', { setColor sw c with brightnesses := (setColor sw c).pixels.map (fun _ => b) }, none) := by
      rw [setBrightness, setBrightnesses, if_neg (by rw [hpx]; exact hp), if_neg (by simp), a1]
    rw [this]
    refine ⟨rfl, fun q hq => ?_⟩
    rw [← hpx] at hq
    obtain ⟨i, hi⟩ := List.mem_iff_getElem?.1 hq
    have hil := (List.getElem?_eq_some_iff.1 hi).1
    rw [a4 i q c b (by omega) hi (setColor_get sw c (by rw [hf.colors, hf.pixels]) i hil) (by simp [List.getElem?_map, hi]),
      scale_shown c b hc hb]

end C99

/-- C99. Setting up the controller with any configuration of different inputs of a device (any number of them, in any
order) raises no exception; after it, all LEDs of all switches are white with half brightness, and all other LEDs are off. -/
theorem C99_setup (d inputs : List Input) (h : Config d inputs) (acts : Nat → List Nat) :
    let r := run ⟨strip inputs, []⟩ (creation acts 0 inputs)
    r.2 = [] ∧ r.1.leds.length = (strip inputs).length ∧
    (∀ k i, inputs[k]? = some i → i.kind = .switch → (∃ sw, r.1.get k = some sw) ∧
      ∀ q ∈ i.pixels, r.1.leds[q]? = some ⟨127, 127, 127⟩) ∧
    (∀ q, (∀ k, q ∉ pixelsOf inputs k) → q < (strip inputs).length → r.1.leds[q]? = some ⟨0, 0, 0⟩) := by
  intro r
  obtain ⟨hw, _⟩ := C99_wiring d inputs h
  have hc := creation_with acts inputs
  have hlen : r.1.leds.length = (strip inputs).length := (run_frame _ hc ⟨strip inputs, []⟩ (fits_nil _ _)).2
  -- one switch
  have one : ∀ k i, inputs[k]? = some i → i.kind = .switch →
      (∃ sw, r.1.get k = some sw) ∧ (∀ q ∈ i.pixels, r.1.leds[q]? = some ⟨127, 127, 127⟩) ∧ errors k r.2 = [] := by
    intro k i hi hk
    obtain ⟨e1, e2, e3⟩ := C99_isolated _ _ hw _ hc (strip inputs) k
    have ho := only_creation acts inputs 0 k i hi hk
    rw [Nat.zero_add] at ho
    rw [ho] at e1 e2 e3
    have hpx : pixelsOf inputs k = i.pixels := by simp [pixelsOf, hi]
    obtain ⟨w1, w2⟩ := write_all _ _ hw k (strip inputs) rfl
      ⟨i.pixels, i.pixels.map (fun _ => black), i.pixels.map (fun _ => 0), acts k⟩
      (by rw [hpx]; constructor <;> simp) white (by simp [Leds.Spec.Color.Valid, white]) (1 / 2) (by decide +kernel)
    have hs : shown white (1 / 2) = ⟨127, 127, 127⟩ := by decide +kernel
    have hg : (⟨strip inputs, []⟩ : Panel).get k = none := rfl
    have hstep : step ⟨strip inputs, []⟩ (.create k i.pixels (acts k)) =
        ({ leds := (newSwitch (strip inputs) i.pixels (acts k)).1,
           switches := [(k, (newSwitch (strip inputs) i.pixels (acts k)).2.1)] }, none) := by
      simp only [step, hg]
      have : (newSwitch (strip inputs) i.pixels (acts k)).2.2 = none := w1
      generalize newSwitch (strip inputs) i.pixels (acts k) = x at this
      obtain ⟨l, sw, e⟩ := x
      subst this
      rfl
    simp only [run, hstep, Option.toList_none, List.map_nil, List.append_nil] at e1 e2 e3
    refine ⟨⟨(newSwitch (strip inputs) i.pixels (acts k)).2.1, e2.trans (by simp [Panel.get])⟩, ?_, e3⟩
    intro q hq
    rw [hpx] at e1 w2
    exact (e1 q hq).trans ((w2 q hq).trans (by rw [hs]))
  refine ⟨?_, hlen, fun k i hi hk => ⟨(one k i hi hk).1, (one k i hi hk).2.1⟩, ?_⟩
  · -- no exception for any switch
    apply Classical.byContradiction
    intro hne
    obtain ⟨e, he⟩ := List.exists_mem_of_ne_nil _ hne
    have hsrc : ∀ (os : List Op) (p : Panel), ∀ e ∈ (run p os).2, ∃ o ∈ os, o.target = e.1 := by
      intro os
      induction os with
      | nil => simp [run]
      | cons o os ih =>
        intro p e he
        simp only [run, List.mem_append, List.mem_map] at he
        rcases he with ⟨x, _, rfl⟩ | he
        · exact ⟨o, by simp, rfl⟩
        · obtain ⟨o', ho, ht⟩ := ih _ e he
          exact ⟨o', by simp [ho], ht⟩
    obtain ⟨o, ho, ht⟩ := hsrc _ _ e he
    obtain ⟨j, i, h1, h2, rfl⟩ := creation_target acts inputs 0 o ho
    simp only [Op.target, Nat.zero_add] at ht
    have := (one j i h1 h2).2.2
    have hmem : e ∈ errors j r.2 := by simp [errors, he, ht]
    rw [this] at hmem
    simp at hmem
  · intro q hq hl
    have := run_untouched _ hc ⟨strip inputs, []⟩ (fits_nil _ _) q (fun o _ => hq o.target)
    refine this.trans ?_
    simp only [strip, List.length_replicate] at hl
    simp [strip, hl, black]

/-- C99. Whatever has happened before: once a color and a brightness have been set for a switch, its LEDs show the color
with that brightness until something is done with this switch again, whatever is done with all other switches. There is no
exception for it. -/
theorem C99_keeps (n : Nat) (px : Nat → List Nat) (hw : Wiring n px) (leds : Strip) (hn : leds.length = n)
    (before after : List Op) (hc : CreatedWith px (before ++ after)) (k : Nat) (c : Color) (hv : Leds.Spec.Color.Valid c)
    (b : Rat) (hb : 0 ≤ b ∧ b ≤ 1) (hex : ((run ⟨leds, []⟩ before).1.get k).isSome) (ha : ∀ o ∈ after, o.target ≠ k) :
    let r := run ⟨leds, []⟩ (before ++ [.color k c, .brightness k b] ++ after)
    (∀ q ∈ px k, r.1.leds[q]? = some (shown c b)) ∧ errors k r.2 = errors k (run ⟨leds, []⟩ before).2 := by
  intro r
  have hcb : CreatedWith px before := fun k ps as hm => hc k ps as (by simp [hm])
  have hca : CreatedWith px after := fun k ps as hm => hc k ps as (by simp [hm])
  obtain ⟨f1, f2⟩ := run_frame before hcb ⟨leds, []⟩ (fits_nil px leds)
  obtain ⟨sw, hsw⟩ := Option.isSome_iff_exists.1 hex
  have hr : r = run ⟨leds, []⟩ (before ++ ([.color k c, .brightness k b] ++ after)) := by simp [r]
  rw [hr, run_append, run_append]
  generalize hp : (run ⟨leds, []⟩ before).1 = p at *
  have hfit := f1 k sw hsw
  have h1 : step p (.color k c) = (p.set k (setColor sw c), none) := by simp only [step, hsw]
  have hg1 : (p.set k (setColor sw c)).get k = some (setColor sw c) := by rw [get_set, if_pos rfl, hsw]; rfl
  obtain ⟨w1, w2⟩ := write_all n px hw k p.leds (f2.trans hn) sw hfit c hv b hb.1
  have h2 : run p [.color k c, .brightness k b] =
      (({ p.set k (setColor sw c) with leds := (setBrightness p.leds (setColor sw c) b).1 } : Panel).set k
        (setBrightness p.leds (setColor sw c) b).2.1, []) := by
    have hl : (p.set k (setColor sw c)).leds = p.leds := rfl
    have h3 : step (p.set k (setColor sw c)) (.brightness k b) =
        (({ p.set k (setColor sw c) with leds := (setBrightness p.leds (setColor sw c) b).1 } : Panel).set k
          (setBrightness p.leds (setColor sw c) b).2.1, none) := by
      simp only [step, hg1, hl, w1]
    simp only [run, h1, h3, Option.toList_none, List.map_nil, List.append_nil]
  have hfit2 : Fits px (run p [.color k c, .brightness k b]).1 :=
    (run_frame [.color k c, .brightness k b] (by intro k ps as hm; simp at hm) p f1).1
  obtain ⟨s1, s2⟩ := run_same hw.disjoint k after hca _ _ hfit2 ⟨rfl, rfl, fun _ _ => rfl⟩
  have ho : only k after = [] := by
    simp only [only, List.filter_eq_nil_iff, decide_eq_true_eq]
    exact ha
  have hnil : ∀ x : Panel, run x [] = (x, []) := fun _ => rfl
  rw [ho, hnil] at s1 s2
  refine ⟨fun q hq => ?_, ?_⟩
  · refine (s1.leds.2 q hq).trans ?_
    rw [h2]
    exact w2 q hq
  · simp only [errors] at s2 ⊢
    simp only [List.filter_append, s2, List.append_nil]
    rw [h2]
    simp

/-- The configuration shipped for the MIDI Captain (`content/inputs.py`). -/
def defaultInputs : List Input :=
  [14, 0, 1, 2, 3, 4, 5, 6, 7, 8, 9, 15, 10].filterMap (fun n => midicaptain10[n]?)

example : Config midicaptain10 defaultInputs := ⟨.inl rfl, by decide, by decide⟩

example : (strip defaultInputs).length = 30 ∧ pixelsOf defaultInputs 6 = [15, 17, 16] := by decide +kernel

/-- Two of the switches only, one of them beyond the other. -/
example : let inputs := [8, 0].filterMap (fun n => midicaptain10[n]?)
    (run ⟨strip inputs, []⟩ (creation (fun _ => []) 0 inputs ++ [.color 1 ⟨200, 0, 0⟩, .brightness 1 (3 / 10),
      .color 0 ⟨0, 0, 50⟩, .brightness 0 1])).1.leds.map (fun c => (c.r, c.g, c.b)) =
    List.replicate 3 (60, 0, 0) ++ List.replicate 21 (0, 0, 0) ++ List.replicate 3 (0, 0, 50) := by decide +kernel

/-! ### C100: pins -/

namespace C100

theorem claimAll_iff (l : List (List Nat)) (used : List Nat) :
    (claimAll used l).isSome ↔ (∀ pins ∈ l, ∀ p ∈ pins, p ∉ used) ∧ l.Pairwise (fun a b => ∀ p ∈ b, p ∉ a) := by
  induction l generalizing used with
  | nil => simp [claimAll]
  | cons a l ih =>
    simp only [claimAll, claim]
    by_cases h : a.all (fun p => !used.contains p)
    · rw [if_pos h]
      simp only [List.all_eq_true, Bool.not_eq_true', List.contains_eq_mem, decide_eq_false_iff_not] at h
      simp only [ih, List.mem_cons, forall_eq_or_imp, List.pairwise_cons, List.mem_append]
      grind
    · rw [if_neg h]
      simp only [List.all_eq_true, Bool.not_eq_true', List.contains_eq_mem, decide_eq_false_iff_not] at h
      simp only [Option.isSome_none, Bool.false_eq_true, List.mem_cons, forall_eq_or_imp, false_iff]
      grind

theorem claimAll_result (l : List (List Nat)) (used r : List Nat) (h : claimAll used l = some r) :
    r = used ++ l.flatten := by
  induction l generalizing used with
  | nil => simpa [claimAll, eq_comm] using h
  | cons a l ih =>
    simp only [claimAll, claim] at h
    split at h
    · simp at h
    · rename_i used' hu
      split at hu
      · obtain rfl := Option.some.inj hu
        simpa using ih _ h
      · simp at hu

end C100

open C100

/-- C100. A configuration of inputs of one device starts without a pin conflict, neither with the display, the LED strip
or the MIDI ports nor among the inputs, if and only if no input is used twice and no jack is used both as a pedal and as a
switch. -/
theorem C100_start (d inputs : List Input) (hd : IsDevice d) (hk : ∀ i ∈ inputs, i ∈ d) (din : Bool) :
    (start din inputs).isSome ↔ inputs.Nodup ∧ ∀ i ∈ inputs, ∀ j ∈ inputs, ¬ SameJack i j := by
  have t1 : ∀ i ∈ d, i.pins ≠ [] ∧ ∀ p ∈ i.pins, p ∉ [14, 15, 12, 13, 16, 17, 7] := by
    rcases hd with rfl | rfl | rfl <;> decide
  simp only [start, claimAll_iff]
  constructor
  · rintro ⟨_, h⟩
    have h := (List.pairwise_append.1 h).2.1
    rw [List.pairwise_map] at h
    have hne : inputs.Pairwise (fun i j => ¬ SameJack i j ∧ i ≠ j) := by
      refine List.Pairwise.imp_of_mem ?_ h
      intro i j hi hj hij
      constructor
      · rintro ⟨_, p, h1, h2⟩
        exact hij p h2 h1
      · rintro rfl
        obtain ⟨p, hp⟩ := List.exists_mem_of_ne_nil _ (t1 i (hk i hi)).1
        exact hij p hp hp
    refine ⟨hne.imp (fun h => h.2), ?_⟩
    intro i hi j hj hs
    have : ∀ i ∈ inputs, ∀ j ∈ inputs, i ≠ j → ¬ SameJack i j := by
      intro i hi j hj hij
      obtain ⟨a, ha, rfl⟩ := List.mem_iff_getElem.1 hi
      obtain ⟨b, hb, rfl⟩ := List.mem_iff_getElem.1 hj
      have hpw := List.pairwise_iff_getElem.1 hne
      rcases Nat.lt_trichotomy a b with h | h | h
      · exact (hpw a b ha hb h).1
      · subst h
        exact absurd rfl hij
      · exact fun hs => (hpw b a hb ha h).1 ⟨hs.1.symm, hs.2.imp (fun p hp => ⟨hp.2, hp.1⟩)⟩
    exact this i hi j hj hs.1 hs
  · rintro ⟨hn, hs⟩
    refine ⟨by simp, ?_⟩
    rw [List.pairwise_append]
    refine ⟨by cases din <;> simp, ?_, ?_⟩
    · rw [List.pairwise_map]
      refine List.Pairwise.imp_of_mem ?_ hn
      intro i j hi hj hij p hp hp'
      exact hs i hi j hj ⟨hij, p, hp', hp⟩
    · intro a ha b hb p hp hpa
      obtain ⟨i, hi, rfl⟩ := List.mem_map.1 hb
      have := (t1 i (hk i hi)).2 p hp
      cases din <;> simp at ha this <;> grind

/-- C100. On the devices the only jacks which can be used in two ways are the two expression inputs of the device with ten
switches. -/
theorem C100_jacks (d : List Input) (hd : IsDevice d) (i j : Input) (hi : i ∈ d) (hj : j ∈ d) :
    SameJack i j ↔ (i.name, j.name) ∈ [("Exp1", "ExpSw1"), ("ExpSw1", "Exp1"), ("Exp2", "ExpSw2"), ("ExpSw2", "Exp2")] := by
  have : ∀ i ∈ d, ∀ j ∈ d, (i ≠ j ∧ ∃ p ∈ i.pins, p ∈ j.pins) ↔
      (i.name, j.name) ∈ [("Exp1", "ExpSw1"), ("ExpSw1", "Exp1"), ("Exp2", "ExpSw2"), ("ExpSw2", "Exp2")] := by
    rcases hd with rfl | rfl | rfl <;> decide +kernel
  have := this i hi j hj
  unfold SameJack
  grind

/-- C100. The pins in use afterwards: those of the display, the LED strip, the DIN ports if used, and the inputs. -/
theorem C100_pins (inputs : List Input) (din : Bool) (r : List Nat) (h : start din inputs = some r) :
    r = [14, 15, 12, 13] ++ (if din then [16, 17] else []) ++ [7] ++ inputs.flatMap (·.pins) := by
  rw [claimAll_result _ _ _ h]
  cases din <;> simp [List.flatMap]

example : (start true defaultInputs).isSome := by decide
example : start false ([10, 12].filterMap (fun n => midicaptain10[n]?)) = none := by decide

/-! ### C101: the strobe order -/

/-- C101. If all switches of a configuration have LEDs, the strobe tuner visits them in the order in which they lie on the
device, whatever their order in the configuration, and leaves out none of them. -/
theorem C101_order_partial (d inputs : List Input) (h : Config d inputs) (names : List String) (hr : Circle d names)
    (hl : ∀ i ∈ inputs, i.kind = .switch → i.pixels ≠ []) :
    (strobeOrder inputs).map (·.name) = names.filter (fun n => inputs.any (fun i => i.kind = .switch ∧ i.name = n)) ∧
    ∀ i, i ∈ strobeOrder inputs ↔ i ∈ inputs ∧ i.kind = .switch := by
  have hmem : ∀ i, i ∈ strobeOrder inputs ↔ i ∈ inputs ∧ i.kind = .switch := by
    intro i
    simp [strobeOrder, (sort_perm _).mem_iff]
  refine ⟨?_, hmem⟩
  -- the circle, as inputs
  obtain ⟨ring, hmap, hin, hsort, hinj⟩ : ∃ ring : List Input, ring.map (·.name) = names ∧
      (∀ i ∈ d, i ∈ ring ↔ i.kind = .switch ∧ i.pixels ≠ []) ∧ ring.Pairwise (fun a b => a.strobe < b.strobe) ∧
      (∀ i ∈ ring, ∀ j ∈ d, i.name = j.name → i = j) := by
    refine ⟨names.filterMap (fun n => d.find? (fun i => i.name = n)), ?_⟩
    rcases hr with ⟨rfl, rfl⟩ | ⟨rfl, rfl⟩ | ⟨rfl, rfl⟩ <;> decide +kernel
  have hord : strobeOrder inputs = ring.filter (fun i => i ∈ inputs) := by
    have hmem2 : ∀ i, i ∈ ring.filter (fun i => i ∈ inputs) ↔ i ∈ inputs ∧ i.kind = .switch := by
      intro i
      simp only [List.mem_filter, decide_eq_true_eq]
      constructor
      · rintro ⟨h1, h2⟩
        exact ⟨h2, ((hin i (h.known i h2)).1 h1).1⟩
      · rintro ⟨h1, h2⟩
        exact ⟨(hin i (h.known i h1)).2 ⟨h2, hl i h1 h2⟩, h1⟩
    have hnd : (strobeOrder inputs).Nodup := (sort_perm _).symm.nodup (h.different.filter _)
    have hnd2 : (ring.filter (fun i => i ∈ inputs)).Nodup :=
      List.Pairwise.filter _ (hsort.imp (fun {a b} hab => by rintro rfl; omega))
    refine List.Perm.eq_of_pairwise (le := fun a b => a.strobe ≤ b.strobe) ?_ ?_ ?_
      ((List.perm_ext_iff_of_nodup hnd hnd2).2 (fun i => (hmem i).trans (hmem2 i).symm))
    · intro a b ha hb h1 h2
      have ha' := (List.mem_filter.1 ((hmem2 a).2 ((hmem a).1 ha))).1
      have hb' := (List.mem_filter.1 hb).1
      obtain ⟨x, hx, rfl⟩ := List.mem_iff_getElem.1 ha'
      obtain ⟨y, hy, rfl⟩ := List.mem_iff_getElem.1 hb'
      have hpw := List.pairwise_iff_getElem.1 hsort
      rcases Nat.lt_trichotomy x y with e | e | e
      · have := hpw x y hx hy e
        omega
      · subst e
        rfl
      · have := hpw y x hy hx e
        omega
    · exact sort_sorted _
    · exact List.Pairwise.filter _ (hsort.imp (fun hab => Nat.le_of_lt hab))
  rw [hord, ← hmap, List.filter_map]
  congr 1
  apply List.filter_congr
  intro i hi
  rw [Bool.eq_iff_iff]
  simp only [Function.comp, List.any_eq_true, decide_eq_true_eq]
  constructor
  · intro h1
    exact ⟨i, h1, ((hin i (h.known i h1)).1 hi).1, rfl⟩
  · rintro ⟨j, hj, _, hn⟩
    have := hinj i hi j (h.known j hj) hn.symm
    exact this ▸ hj

/-- C101. A switch without LEDs gets a place on the circle, too: in the configuration shipped for the MIDI Captain the
push button of the wheel lies between the switches 1 and 2, and nothing is seen when the light is there. -/
theorem C101_dark_place : Config midicaptain10 defaultInputs ∧
    (strobeOrder defaultInputs).map (·.name) =
      ["1", "WhlButton", "2", "3", "4", "Up", "Down", "D", "C", "B", "A"] ∧
    ∃ i ∈ strobeOrder defaultInputs, i.name = "WhlButton" ∧ i.pixels = [] := by
  refine ⟨⟨.inl rfl, by decide, by decide⟩, ?_, ?_⟩ <;> decide +kernel

/-- Four switches in another order. -/
example : (strobeOrder ([9, 5, 0, 4].filterMap (fun n => midicaptain10[n]?))).map (·.name) = ["1", "Up", "Down", "A"] := by
  decide +kernel

end PySwitch.Props
