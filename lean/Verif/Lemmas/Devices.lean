import Verif.Spec.Devices
import Verif.Lemmas.Leds
namespace PySwitch.Devices
open PySwitch.Leds PySwitch.Devices.Spec

/-! ### One switch -/

theorem writeLoop_frame (sw : Switch) (bs : List Rat) (n i : Nat) (leds : Strip) :
    (writeLoop sw bs n i leds).1.length = leds.length ∧
    ∀ q, q ∉ sw.pixels → (writeLoop sw bs n i leds).1[q]? = leds[q]? := by
  induction n generalizing i leds with
  | zero => simp [writeLoop]
  | succ n ih =>
    simp only [writeLoop]
    split
    · rename_i pixel c b h1 h2 h3
      split
      · obtain ⟨a1, a2⟩ := ih (i + 1) (leds.set pixel (c.scale b))
        refine ⟨by simpa using a1, fun q hq => ?_⟩
        rw [a2 q hq]
        refine List.getElem?_set_ne ?_
        rintro rfl
        exact hq (List.mem_of_getElem? h1)
      · simp
    · simp

/-- The strips agree on the LEDs `S`. -/
def Agree (S : List Nat) (a b : Strip) : Prop := a.length = b.length ∧ ∀ q ∈ S, a[q]? = b[q]?

theorem writeLoop_agree (S : List Nat) (sw : Switch) (bs : List Rat) (n i : Nat) (leds leds' : Strip)
    (h : Agree S leds leds') :
    Agree S (writeLoop sw bs n i leds).1 (writeLoop sw bs n i leds').1 ∧
    (writeLoop sw bs n i leds).2 = (writeLoop sw bs n i leds').2 := by
  induction n generalizing i leds leds' with
  | zero => exact ⟨h, rfl⟩
  | succ n ih =>
    simp only [writeLoop]
    split
    · rename_i pixel c b h1 h2 h3
      rw [← h.1]
      split
      · apply ih
        refine ⟨by simpa using h.1, fun q hq => ?_⟩
        by_cases e : pixel = q
        · subst e
          rw [List.getElem?_set, List.getElem?_set]
          simp [h.1]
        · rw [List.getElem?_set_ne e, List.getElem?_set_ne e]
          exact h.2 q hq
      · exact ⟨h, rfl⟩
    · exact ⟨h, rfl⟩

theorem setBrightnesses_frame (leds : Strip) (sw : Switch) (bs : List Rat) :
    (setBrightnesses leds sw bs).1.length = leds.length ∧
    (∀ q, q ∉ sw.pixels → (setBrightnesses leds sw bs).1[q]? = leds[q]?) := by
  unfold setBrightnesses
  have := writeLoop_frame sw bs sw.pixels.length 0 leds
  split
  · simp
  · split
    · simp
    · split <;> rename_i heq <;> rw [heq] at this <;> exact this

theorem setBrightnesses_agree (S : List Nat) (leds leds' : Strip) (sw : Switch) (bs : List Rat) (h : Agree S leds leds') :
    Agree S (setBrightnesses leds sw bs).1 (setBrightnesses leds' sw bs).1 ∧
    (setBrightnesses leds sw bs).2 = (setBrightnesses leds' sw bs).2 := by
  unfold setBrightnesses
  have := writeLoop_agree S sw bs sw.pixels.length 0 leds leds' h
  split
  · exact ⟨h, rfl⟩
  · split
    · exact ⟨h, rfl⟩
    · split <;> rename_i heq <;> split <;> rename_i heq' <;> rw [heq, heq'] at this <;>
        refine ⟨this.1, ?_⟩ <;> have := this.2 <;> simp_all

/-- The switch keeps its LEDs, and has a color and a brightness for each of them. -/
structure Fit (ps : List Nat) (sw : Switch) : Prop where
  pixels : sw.pixels = ps
  colors : sw.colors.length = ps.length
  brightnesses : sw.brightnesses.length = ps.length

theorem setColor_length (sw : Switch) (c : Color) : (setColor sw c).colors.length = sw.colors.length := by
  simp only [setColor]
  generalize List.range sw.pixels.length = l
  generalize sw.colors = cs
  induction l generalizing cs with
  | nil => rfl
  | cons x l ih => rw [List.foldl_cons, ih]; simp

theorem Fit.setColor {ps : List Nat} {sw : Switch} (h : Fit ps sw) (c : Color) : Fit ps (setColor sw c) :=
  ⟨h.pixels, (setColor_length sw c).trans h.colors, h.brightnesses⟩

theorem Fit.setColors {ps : List Nat} {sw sw' : Switch} (h : Fit ps sw) (cs : List Color) (e : setColors sw cs = .ok sw') :
    Fit ps sw' := by
  unfold Leds.setColors at e
  split at e
  · simp at e
  · rename_i hl
    obtain rfl := Except.ok.inj e
    exact ⟨h.pixels, by simpa [h.pixels] using hl, h.brightnesses⟩

theorem Fit.setBrightnesses {ps : List Nat} {sw : Switch} (h : Fit ps sw) (leds : Strip) (bs : List Rat) :
    Fit ps (setBrightnesses leds sw bs).2.1 := by
  unfold Leds.setBrightnesses
  split
  · exact h
  · split
    · exact h
    · rename_i hl
      split
      · exact h
      · exact ⟨h.pixels, h.colors, by simpa [h.pixels] using hl⟩

theorem Fit.setSwitchColor {ps : List Nat} {sw sw' : Switch} (h : Fit ps sw) (A : Actions) (a : Nat) (c : ColorArg)
    (e : setSwitchColor A sw a c = .ok sw') : Fit ps sw' := by
  unfold Leds.setSwitchColor at e
  split at e
  · simp at e
  · obtain rfl := Except.ok.inj e
    exact h
  · exact h.setColors _ e

theorem setSwitchBrightness_cases (A : Actions) (sw : Switch) (a : Nat) (b : Rat) :
    (∃ r, ∀ leds, setSwitchBrightness A leds sw a b = (leds, sw, r)) ∨
    (∃ bs, ∀ leds, setSwitchBrightness A leds sw a b = setBrightnesses leds sw bs) := by
  cases h : segments A sw a with
  | error e => exact .inl ⟨some e, fun _ => by simp [setSwitchBrightness, h]⟩
  | ok l =>
    cases l with
    | nil => exact .inl ⟨none, fun _ => by simp [setSwitchBrightness, h]⟩
    | cons s l => exact .inr ⟨_, fun _ => by simp [setSwitchBrightness, h]; rfl⟩

/-! ### All switches -/

theorem lookup_map_set (l : List (Nat × Switch)) (k j : Nat) (sw : Switch) :
    (l.map (fun x => if x.1 = k then (k, sw) else x)).lookup j =
      if j = k then (l.lookup j).map (fun _ => sw) else l.lookup j := by
  induction l with
  | nil => simp
  | cons x l ih =>
    obtain ⟨i, s⟩ := x
    by_cases hik : i = k
    · subst hik
      by_cases hji : j = i
      · subst hji
        simp [List.lookup]
      · simp only [List.map_cons, if_true, List.lookup, if_neg hji] at ih ⊢
        have : (j == i) = false := by simpa using hji
        simp only [this]
        exact ih
    · simp only [List.map_cons, if_neg hik, List.lookup]
      by_cases hji : j = i
      · subst hji
        simp [hik]
      · have : (j == i) = false := by simpa using hji
        simp only [this]
        exact ih

theorem get_set (p : Panel) (k j : Nat) (sw : Switch) :
    (p.set k sw).get j = if j = k then (p.get j).map (fun _ => sw) else p.get j := lookup_map_set _ _ _ _

theorem lookup_append {α : Type} (l : List (Nat × α)) (k j : Nat) (x : α) (h : l.lookup k = none) :
    (l ++ [(k, x)]).lookup j = if j = k then some x else l.lookup j := by
  induction l with
  | nil =>
    by_cases e : j = k
    · simp [e]
    · have : (j == k) = false := by simpa using e
      simp [List.lookup, this, e]
  | cons y l ih =>
    obtain ⟨i, s⟩ := y
    simp only [List.cons_append, List.lookup] at h ⊢
    by_cases hki : k = i
    · subst hki
      simp at h
    · have hki' : (k == i) = false := by simpa using hki
      simp only [hki'] at h
      by_cases hji : j = i
      · subst hji
        simp [Ne.symm hki]
      · have : (j == i) = false := by simpa using hji
        simp only [this]
        exact ih h

/-- The switches fit to their wiring. -/
def Fits (px : Nat → List Nat) (p : Panel) : Prop := ∀ k sw, p.get k = some sw → Fit (px k) sw

/-- The operation creates switches with their LEDs only. -/
def Op.Ok (px : Nat → List Nat) : Op → Prop
  | .create k ps _ => ps = px k
  | _ => True

theorem newSwitch_fit (leds : Strip) (ps as : List Nat) : Fit ps (newSwitch leds ps as).2.1 := by
  unfold newSwitch setBrightness
  refine Fit.setBrightnesses ?_ _ _
  refine Fit.setColor ?_ _
  constructor <;> simp

theorem newSwitch_frame (leds : Strip) (ps as : List Nat) :
    (newSwitch leds ps as).1.length = leds.length ∧ ∀ q, q ∉ ps → (newSwitch leds ps as).1[q]? = leds[q]? :=
  setBrightnesses_frame leds _ _

theorem newSwitch_agree (S : List Nat) (leds leds' : Strip) (ps as : List Nat) (h : Agree S leds leds') :
    Agree S (newSwitch leds ps as).1 (newSwitch leds' ps as).1 ∧
    (newSwitch leds ps as).2 = (newSwitch leds' ps as).2 :=
  setBrightnesses_agree S leds leds' _ _ h

theorem Fits.set {px : Nat → List Nat} {p : Panel} (h : Fits px p) (k : Nat) (sw : Switch) (hf : Fit (px k) sw)
    (leds : Strip) : Fits px (({ p with leds } : Panel).set k sw) := by
  intro j s hs
  rw [get_set] at hs
  by_cases e : j = k
  · subst e
    rw [if_pos rfl] at hs
    cases hg : ({ p with leds } : Panel).get j with
    | none => simp [hg] at hs
    | some s' =>
      simp only [hg, Option.map_some, Option.some.injEq] at hs
      exact hs ▸ hf
  · rw [if_neg e] at hs
    exact h j s hs

/-- What an operation leaves alone. -/
theorem step_frame {px : Nat → List Nat} (p : Panel) (hp : Fits px p) (o : Op) (ho : o.Ok px) :
    Fits px (step p o).1 ∧ (step p o).1.leds.length = p.leds.length ∧
    (∀ q, q ∉ px o.target → (step p o).1.leds[q]? = p.leds[q]?) ∧
    (∀ k, k ≠ o.target → (step p o).1.get k = p.get k) := by
  cases o with
  | create k ps as =>
    simp only [Op.Ok] at ho
    subst ho
    simp only [step, Op.target]
    cases hg : p.get k with
    | some s => exact ⟨hp, rfl, fun _ _ => rfl, fun _ _ => rfl⟩
    | none =>
      have hf := newSwitch_frame p.leds (px k) as
      have hfit := newSwitch_fit p.leds (px k) as
      cases hn : newSwitch p.leds (px k) as with
      | mk leds r =>
        obtain ⟨sw, e⟩ := r
        rw [hn] at hf hfit
        cases e with
        | some e => exact ⟨hp, hf.1, hf.2, fun _ _ => rfl⟩
        | none =>
          refine ⟨?_, hf.1, hf.2, ?_⟩
          · intro j s hs
            simp only [Panel.get] at hs
            rw [lookup_append _ _ _ _ hg] at hs
            by_cases e : j = k
            · subst e
              simp only [if_true, Option.some.injEq] at hs
              exact hs ▸ hfit
            · rw [if_neg e] at hs
              exact hp j s hs
          · intro j hj
            simp only [Panel.get]
            rw [lookup_append _ _ _ _ hg, if_neg hj]
  | color k c =>
    simp only [step, Op.target]
    cases hg : p.get k with
    | none => exact ⟨hp, rfl, fun _ _ => rfl, fun _ _ => rfl⟩
    | some sw =>
      refine ⟨hp.set k _ ((hp k sw hg).setColor c) p.leds, rfl, fun _ _ => rfl, fun j hj => ?_⟩
      simp only [get_set, if_neg hj]
  | colors k cs =>
    simp only [step, Op.target]
    cases hg : p.get k with
    | none => exact ⟨hp, rfl, fun _ _ => rfl, fun _ _ => rfl⟩
    | some sw =>
      cases he : setColors sw cs with
      | error e => simp only [he]; exact ⟨hp, trivial, fun _ _ => trivial, fun _ _ => trivial⟩
      | ok sw' =>
        simp only [he]
        refine ⟨hp.set k _ ((hp k sw hg).setColors cs he) p.leds, rfl, fun _ _ => rfl, fun j hj => ?_⟩
        simp only [get_set, if_neg hj]
  | brightness k b =>
    simp only [step, Op.target]
    cases hg : p.get k with
    | none => exact ⟨hp, rfl, fun _ _ => rfl, fun _ _ => rfl⟩
    | some sw =>
      have hf := setBrightnesses_frame p.leds sw (sw.pixels.map (fun _ => b))
      refine ⟨hp.set k _ ((hp k sw hg).setBrightnesses p.leds _) _, hf.1, ?_, fun j hj => ?_⟩
      · intro q hq
        exact hf.2 q (by rw [(hp k sw hg).pixels]; exact hq)
      · simp only [get_set, if_neg hj]
        rfl
  | brightnesses k bs =>
    simp only [step, Op.target]
    cases hg : p.get k with
    | none => exact ⟨hp, rfl, fun _ _ => rfl, fun _ _ => rfl⟩
    | some sw =>
      have hf := setBrightnesses_frame p.leds sw bs
      refine ⟨hp.set k _ ((hp k sw hg).setBrightnesses p.leds _) _, hf.1, ?_, fun j hj => ?_⟩
      · intro q hq
        exact hf.2 q (by rw [(hp k sw hg).pixels]; exact hq)
      · simp only [get_set, if_neg hj]
        rfl
  | actionColor k A a c =>
    simp only [step, Op.target]
    cases hg : p.get k with
    | none => exact ⟨hp, rfl, fun _ _ => rfl, fun _ _ => rfl⟩
    | some sw =>
      cases he : setSwitchColor A sw a c with
      | error e => simp only [he]; exact ⟨hp, trivial, fun _ _ => trivial, fun _ _ => trivial⟩
      | ok sw' =>
        simp only [he]
        refine ⟨hp.set k _ ((hp k sw hg).setSwitchColor A a c he) p.leds, rfl, fun _ _ => rfl, fun j hj => ?_⟩
        simp only [get_set, if_neg hj]
  | actionBrightness k A a b =>
    simp only [step, Op.target]
    cases hg : p.get k with
    | none => exact ⟨hp, rfl, fun _ _ => rfl, fun _ _ => rfl⟩
    | some sw =>
      rcases setSwitchBrightness_cases A sw a b with ⟨r, hr⟩ | ⟨bs, hr⟩
      · simp only [hr]
        refine ⟨hp.set k _ (hp k sw hg) _, rfl, fun _ _ => rfl, fun j hj => ?_⟩
        simp only [get_set, if_neg hj]
      · simp only [hr]
        have hf := setBrightnesses_frame p.leds sw bs
        refine ⟨hp.set k _ ((hp k sw hg).setBrightnesses p.leds _) _, hf.1, ?_, fun j hj => ?_⟩
        · intro q hq
          exact hf.2 q (by rw [(hp k sw hg).pixels]; exact hq)
        · simp only [get_set, if_neg hj]
          rfl

/-- Both panels look the same for switch `k`. -/
structure Same (px : Nat → List Nat) (k : Nat) (p p' : Panel) : Prop where
  get : p.get k = p'.get k
  leds : Agree (px k) p.leds p'.leds

theorem get_leds (p : Panel) (leds : Strip) (k : Nat) : ({ p with leds } : Panel).get k = p.get k := rfl

theorem same_set {px : Nat → List Nat} {k : Nat} {p p' : Panel} (h : p.get k = p'.get k) (sw : Switch) (l l' : Strip)
    (hl : Agree (px k) l l') : Same px k (({ p with leds := l } : Panel).set k sw) (({ p' with leds := l' } : Panel).set k sw) := by
  refine ⟨?_, hl⟩
  simp only [get_set, if_true, get_leds, h]

/-- An operation on switch `k` has the same effects on it, whatever the other switches do. -/
theorem step_same {px : Nat → List Nat} (p p' : Panel) (o : Op) (h : Same px o.target p p') :
    Same px o.target (step p o).1 (step p' o).1 ∧ (step p o).2 = (step p' o).2 := by
  cases o with
  | create k ps as =>
    simp only [step, Op.target] at h ⊢
    have hg := h.get
    cases hp : p'.get k with
    | some s =>
      rw [hp] at hg
      simp only [hg]
      exact ⟨h, trivial⟩
    | none =>
      rw [hp] at hg
      simp only [hg]
      obtain ⟨h1, h2⟩ := newSwitch_agree (px k) p.leds p'.leds ps as h.leds
      cases hn : newSwitch p.leds ps as with
      | mk leds r =>
        cases hn' : newSwitch p'.leds ps as with
        | mk leds' r' =>
          rw [hn, hn'] at h1 h2
          simp only at h1 h2
          subst h2
          obtain ⟨sw, e⟩ := r
          cases e with
          | some e => exact ⟨⟨h.get, h1⟩, rfl⟩
          | none =>
            refine ⟨⟨?_, h1⟩, rfl⟩
            simp only [Panel.get]
            rw [lookup_append _ _ _ _ hg, lookup_append _ _ _ _ hp]
            simp
  | color k c =>
    simp only [step, Op.target] at h ⊢
    rw [h.get]
    cases hp : p'.get k with
    | none => exact ⟨h, rfl⟩
    | some sw => exact ⟨same_set h.get _ _ _ h.leds, rfl⟩
  | colors k cs =>
    simp only [step, Op.target] at h ⊢
    rw [h.get]
    cases hp : p'.get k with
    | none => exact ⟨h, rfl⟩
    | some sw =>
      cases he : setColors sw cs with
      | error e => simp only [he]; exact ⟨h, trivial⟩
      | ok sw' => simp only [he]; exact ⟨same_set h.get _ _ _ h.leds, trivial⟩
  | brightness k b =>
    simp only [step, Op.target] at h ⊢
    rw [h.get]
    cases hp : p'.get k with
    | none => exact ⟨h, rfl⟩
    | some sw =>
      obtain ⟨h1, h2⟩ := setBrightnesses_agree (px k) p.leds p'.leds sw (sw.pixels.map (fun _ => b)) h.leds
      simp only [setBrightness, h2]
      exact ⟨same_set h.get _ _ _ h1, trivial⟩
  | brightnesses k bs =>
    simp only [step, Op.target] at h ⊢
    rw [h.get]
    cases hp : p'.get k with
    | none => exact ⟨h, rfl⟩
    | some sw =>
      obtain ⟨h1, h2⟩ := setBrightnesses_agree (px k) p.leds p'.leds sw bs h.leds
      simp only [h2]
      exact ⟨same_set h.get _ _ _ h1, trivial⟩
  | actionColor k A a c =>
    simp only [step, Op.target] at h ⊢
    rw [h.get]
    cases hp : p'.get k with
    | none => exact ⟨h, rfl⟩
    | some sw =>
      cases he : setSwitchColor A sw a c with
      | error e => simp only [he]; exact ⟨h, trivial⟩
      | ok sw' => simp only [he]; exact ⟨same_set h.get _ _ _ h.leds, trivial⟩
  | actionBrightness k A a b =>
    simp only [step, Op.target] at h ⊢
    rw [h.get]
    cases hp : p'.get k with
    | none => exact ⟨h, rfl⟩
    | some sw =>
      rcases setSwitchBrightness_cases A sw a b with ⟨r, hr⟩ | ⟨bs, hr⟩
      · simp only [hr]
        exact ⟨same_set h.get _ _ _ h.leds, trivial⟩
      · obtain ⟨h1, h2⟩ := setBrightnesses_agree (px k) p.leds p'.leds sw bs h.leds
        simp only [hr, h2]
        exact ⟨same_set h.get _ _ _ h1, trivial⟩

theorem ok_of_mem {px : Nat → List Nat} {os : List Op} (h : CreatedWith px os) : ∀ o ∈ os, o.Ok px := by
  intro o ho
  cases o with
  | create k ps as => exact h k ps as ho
  | _ => trivial

theorem run_frame {px : Nat → List Nat} (os : List Op) (h : CreatedWith px os) (p : Panel) (hp : Fits px p) :
    Fits px (run p os).1 ∧ (run p os).1.leds.length = p.leds.length := by
  induction os generalizing p with
  | nil => exact ⟨hp, rfl⟩
  | cons o os ih =>
    obtain ⟨a, b, _, _⟩ := step_frame p hp o (ok_of_mem h o (by simp))
    obtain ⟨c, d⟩ := ih (fun k ps as hm => h k ps as (by simp [hm])) (step p o).1 a
    exact ⟨c, d.trans b⟩

/-- Operations on other switches do not matter. -/
theorem run_same {px : Nat → List Nat} (hd : ∀ j k, j ≠ k → ∀ q ∈ px j, q ∉ px k) (k : Nat) (os : List Op)
    (h : CreatedWith px os) (p p' : Panel) (hp : Fits px p) (hs : Same px k p p') :
    Same px k (run p os).1 (run p' (only k os)).1 ∧
    errors k (run p os).2 = (run p' (only k os)).2 := by
  induction os generalizing p p' with
  | nil => exact ⟨hs, rfl⟩
  | cons o os ih =>
    obtain ⟨a, b, c, d⟩ := step_frame p hp o (ok_of_mem h o (by simp))
    have h' : CreatedWith px os := fun k ps as hm => h k ps as (by simp [hm])
    by_cases ht : o.target = k
    · subst ht
      obtain ⟨e1, e2⟩ := step_same p p' o hs
      obtain ⟨f1, f2⟩ := ih h' (step p o).1 (step p' o).1 a e1
      simp only [only, errors] at f1 f2
      simp only [run, only, errors, List.filter_cons, decide_true, if_true, e2]
      refine ⟨f1, ?_⟩
      rw [List.filter_append, f2]
      congr 1
      cases (step p' o).2 <;> simp
    · obtain ⟨f1, f2⟩ := ih h' (step p o).1 p' a ⟨(d k (Ne.symm ht)).trans hs.get, by
        rw [b]; exact hs.leds.1, fun q hq => (c q (hd k o.target (Ne.symm ht) q hq)).trans (hs.leds.2 q hq)⟩
      simp only [only, errors] at f1 f2
      simp only [run, only, errors, List.filter_cons, ht, decide_false, Bool.false_eq_true, if_false]
      refine ⟨f1, ?_⟩
      rw [List.filter_append, f2]
      cases (step p o).2 <;> simp [ht]

theorem run_untouched {px : Nat → List Nat} (os : List Op) (h : CreatedWith px os) (p : Panel) (hp : Fits px p) (q : Nat)
    (hq : ∀ o ∈ os, q ∉ px o.target) : (run p os).1.leds[q]? = p.leds[q]? := by
  induction os generalizing p with
  | nil => rfl
  | cons o os ih =>
    obtain ⟨a, _, c, _⟩ := step_frame p hp o (ok_of_mem h o (by simp))
    exact (ih (fun k ps as hm => h k ps as (by simp [hm])) (step p o).1 a (fun o ho => hq o (by simp [ho]))).trans
      (c q (hq o (by simp)))

theorem run_append (p : Panel) (a b : List Op) :
    run p (a ++ b) = ((run (run p a).1 b).1, (run p a).2 ++ (run (run p a).1 b).2) := by
  induction a generalizing p with
  | nil => simp [run]
  | cons o a ih => simp [run, ih]

/-! ### The number of LEDs -/

theorem foldl_pixels (ps : List Nat) (r : Nat) :
    let f := ps.foldl (fun ret p => if p + 1 > ret then p + 1 else ret) r
    r ≤ f ∧ (∀ p ∈ ps, p < f) ∧ (f = r ∨ ∃ p ∈ ps, f = p + 1) := by
  induction ps generalizing r with
  | nil => simp
  | cons p ps ih =>
    obtain ⟨a, b, c⟩ := ih (if p + 1 > r then p + 1 else r)
    simp only [List.foldl_cons]
    generalize ps.foldl (fun ret p => if p + 1 > ret then p + 1 else ret) (if p + 1 > r then p + 1 else r) = f at a b c
    simp only [List.mem_cons, forall_eq_or_imp, exists_eq_or_imp]
    split at a <;> rename_i h
    · simp only [if_pos h] at c
      exact ⟨by omega, ⟨by omega, b⟩, .inr c⟩
    · simp only [if_neg h] at c
      refine ⟨by omega, ⟨by omega, b⟩, ?_⟩
      rcases c with c | c
      · exact .inl c
      · exact .inr (.inr c)

theorem foldl_inputs (is : List Input) (r : Nat) :
    let f := is.foldl (fun ret i => i.pixels.foldl (fun ret p => if p + 1 > ret then p + 1 else ret) ret) r
    r ≤ f ∧ (∀ i ∈ is, ∀ p ∈ i.pixels, p < f) ∧ (f = r ∨ ∃ i ∈ is, ∃ p ∈ i.pixels, f = p + 1) := by
  induction is generalizing r with
  | nil => simp
  | cons i is ih =>
    obtain ⟨a1, b1, c1⟩ := foldl_pixels i.pixels r
    obtain ⟨a, b, c⟩ := ih (i.pixels.foldl (fun ret p => if p + 1 > ret then p + 1 else ret) r)
    simp only [List.foldl_cons]
    generalize i.pixels.foldl (fun ret p => if p + 1 > ret then p + 1 else ret) r = g at a b c a1 b1 c1
    generalize is.foldl (fun ret i => i.pixels.foldl (fun ret p => if p + 1 > ret then p + 1 else ret) ret) g = f at a b c
    simp only [List.mem_cons, forall_eq_or_imp, exists_eq_or_imp]
    refine ⟨by omega, ⟨fun p hp => by have := b1 p hp; omega, b⟩, ?_⟩
    rcases c with c | c
    · rcases c1 with c1 | ⟨p, hp, c1⟩
      · exact .inl (c.trans c1)
      · exact .inr (.inl ⟨p, hp, c.trans c1⟩)
    · exact .inr (.inr c)

theorem creation_target (acts : Nat → List Nat) (is : List Input) (k : Nat) :
    ∀ o ∈ creation acts k is, ∃ j i, is[j]? = some i ∧ i.kind = .switch ∧ o = .create (k + j) i.pixels (acts (k + j)) := by
  induction is generalizing k with
  | nil => simp [creation]
  | cons i is ih =>
    intro o ho
    simp only [creation, List.mem_append] at ho
    rcases ho with ho | ho
    · split at ho
      · rename_i hk
        exact ⟨0, i, rfl, hk, by simpa using ho⟩
      · simp at ho
    · obtain ⟨j, i', h1, h2, h3⟩ := ih (k + 1) o ho
      exact ⟨j + 1, i', h1, h2, by rw [h3]; congr 1 <;> first | omega | (congr 1; omega)⟩

theorem only_creation (acts : Nat → List Nat) (is : List Input) (k j : Nat) (i : Input) (h : is[j]? = some i)
    (hk : i.kind = .switch) : only (k + j) (creation acts k is) = [.create (k + j) i.pixels (acts (k + j))] := by
  induction is generalizing k j with
  | nil => simp at h
  | cons x is ih =>
    have hnone : ∀ m, m < k + 1 → only m (creation acts (k + 1) is) = [] := by
      intro m hm
      simp only [only, List.filter_eq_nil_iff, decide_eq_true_eq]
      intro o ho
      obtain ⟨j, _, _, _, rfl⟩ := creation_target acts is (k + 1) o ho
      simp only [Op.target]
      omega
    cases j with
    | zero =>
      simp only [List.getElem?_cons_zero, Option.some.injEq] at h
      subst h
      have := hnone k (by omega)
      simp only [only] at this
      simp only [creation, hk, only, Nat.add_zero, if_true, List.filter_append, this]
      simp [Op.target]
    | succ j =>
      simp only [List.getElem?_cons_succ] at h
      have := ih (k + 1) j h
      rw [show k + 1 + j = k + (j + 1) by omega] at this
      simp only [only] at this
      simp only [creation, only, List.filter_append, this]
      split <;> simp [Op.target]

theorem insert_perm (i : Input) (l : List Input) : (insertByStrobe i l).Perm (i :: l) := by
  induction l with
  | nil => exact .refl _
  | cons j l ih =>
    simp only [insertByStrobe]
    split
    · exact .refl _
    · exact (ih.cons j).trans (.swap i j l)

theorem insert_sorted (i : Input) (l : List Input) (h : l.Pairwise (fun a b => a.strobe ≤ b.strobe)) :
    (insertByStrobe i l).Pairwise (fun a b => a.strobe ≤ b.strobe) := by
  induction l with
  | nil => simp [insertByStrobe]
  | cons j l ih =>
    rw [List.pairwise_cons] at h
    simp only [insertByStrobe]
    split
    · rename_i hij
      rw [List.pairwise_cons, List.pairwise_cons]
      refine ⟨?_, h⟩
      intro x hx
      rcases List.mem_cons.1 hx with rfl | hx
      · exact hij
      · exact Nat.le_trans hij (h.1 x hx)
    · rename_i hij
      rw [List.pairwise_cons]
      refine ⟨?_, ih h.2⟩
      intro x hx
      rcases List.mem_cons.1 ((insert_perm i l).mem_iff.1 hx) with rfl | hx
      · omega
      · exact h.1 x hx

theorem sort_perm (l : List Input) : (l.foldr insertByStrobe []).Perm l := by
  induction l with
  | nil => exact .refl _
  | cons i l ih => exact (insert_perm i _).trans (ih.cons i)

theorem sort_sorted (l : List Input) : (l.foldr insertByStrobe []).Pairwise (fun a b => a.strobe ≤ b.strobe) := by
  induction l with
  | nil => simp
  | cons i l ih => exact insert_sorted i _ ih

end PySwitch.Devices
