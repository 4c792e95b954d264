import Verif.Lemmas.Properties

/-!
The dialog: what arguments do to the inputs.
-/

namespace PySwitch.Properties
open Spec

/-! ### Updates only concern the input for pages -/

theorem update_same (d : Dialog) :
    d.update.kind = d.kind ∧ d.update.params = d.params ∧ d.update.assign = d.assign ∧ d.update.hold = d.hold ∧ d.update.pager = d.pager ∧
    ∀ n, some n ≠ pageParam d.kind → d.update.inputs n = d.inputs n := by
  unfold Dialog.update
  split
  · exact ⟨rfl, rfl, rfl, rfl, rfl, fun _ _ => rfl⟩
  · rename_i hk
    split
    · refine ⟨rfl, rfl, rfl, rfl, rfl, fun n hn => ?_⟩
      rw [hk] at hn
      simp only [Dialog.setInput]
      rw [if_neg (fun e => hn (by rw [e]; rfl))]
    · exact ⟨rfl, rfl, rfl, rfl, rfl, fun _ _ => rfl⟩
  · rename_i hk
    split
    · split
      · exact ⟨rfl, rfl, rfl, rfl, rfl, fun _ _ => rfl⟩
      · split
        · refine ⟨rfl, rfl, rfl, rfl, rfl, fun n hn => ?_⟩
          rw [hk] at hn
          simp only [Dialog.setInput]
          rw [if_neg (fun e => hn (by rw [e]; rfl))]
        · exact ⟨rfl, rfl, rfl, rfl, rfl, fun _ _ => rfl⟩
    · exact ⟨rfl, rfl, rfl, rfl, rfl, fun _ _ => rfl⟩

/-- A selection stays a selection. -/
theorem update_choice (d : Dialog) (n : Text) (h : ∃ o s, d.inputs n = some (.choice o s)) : ∃ o s, d.update.inputs n = some (.choice o s) := by
  unfold Dialog.update
  split
  · exact h
  · split
    · simp only [Dialog.setInput]
      split
      · exact ⟨_, _, rfl⟩
      · exact h
    · exact h
  · split
    · split
      · exact h
      · split
        · simp only [Dialog.setInput]
          split
          · exact ⟨_, _, rfl⟩
          · exact h
        · exact h
    · exact h

/-- The inputs are those which have been created. -/
structure Ready (d : Dialog) : Prop where
  inputs : ∀ p ∈ d.params, some p.name ≠ pageParam d.kind → ∃ i0 i, fresh p = some i0 ∧ d.inputs p.name = some i ∧ Like i i0
  page : ∀ p ∈ d.params, some p.name = pageParam d.kind → ∃ o s, d.inputs p.name = some (.choice o s)

theorem Ready.update {d : Dialog} (h : Ready d) : Ready d.update := by
  obtain ⟨e1, e2, -, -, -, e3⟩ := update_same d
  constructor
  · rw [e1, e2]
    intro p hp hn
    obtain ⟨i0, i, a, b, c⟩ := h.inputs p hp hn
    exact ⟨i0, i, a, by rw [e3 _ hn]; exact b, c⟩
  · rw [e1, e2]
    intro p hp hn
    exact update_choice d _ (h.page p hp hn)

theorem find_param {ps : List Param} (hd : Distinct ps) {p : Param} (hp : p ∈ ps) : (ps.find? fun q => q.name = p.name) = some p := by
  induction ps with
  | nil => simp at hp
  | cons q ps ih =>
    simp only [Distinct, List.map_cons, List.nodup_cons] at hd
    rw [List.find?_cons]
    rcases List.mem_cons.1 hp with rfl | hp
    · simp
    · have : q.name ≠ p.name := fun e => hd.1 (by rw [e]; exact List.mem_map_of_mem hp)
      simp only [this, decide_false]
      exact ih hd.2 hp

/-- What an argument must be like to be shown. -/
def ArgOk (d : Dialog) (a : Text × Val) : Prop :=
  ∃ p ∈ d.params, p.name = a.1 ∧ (some p.name ≠ pageParam d.kind → Shows p a.2) ∧ (some p.name = pageParam d.kind → ∃ t, a.2 = .code t)

/-- One argument. -/
theorem setArgument_spec {d : Dialog} (h : Ready d) (hd : Distinct d.params) {a : Text × Val} (ha : ArgOk d a) :
    ∃ d', d.setArgument a.1 a.2 = some d' ∧ Ready d' ∧ d'.kind = d.kind ∧ d'.params = d.params ∧ d'.assign = d.assign ∧ d'.hold = d.hold ∧
      d'.pager = d.pager ∧ (∀ n, some n ≠ pageParam d.kind → n ≠ a.1 → d'.inputs n = d.inputs n) ∧
      (∀ p ∈ d.params, p.name = a.1 → some p.name ≠ pageParam d.kind → Same (d'.value p) (some a.2)) := by
  obtain ⟨p, hp, hn, hs, ht⟩ := ha
  obtain ⟨e1, e2, e3, e4, e5, e6⟩ := update_same d
  have hu := h.update
  have hfind : d.update.param a.1 = some p := by rw [← hn, Dialog.param, e2]; exact find_param hd hp
  have huniq : ∀ q ∈ d.params, q.name = a.1 → q = p := by
    intro q hq e
    have := find_param hd hq
    rw [e, ← hn, find_param hd hp] at this
    simpa using this.symm
  have key : ∀ i i', d.update.inputs p.name = some i → write i a.2 = some i' →
      d.setArgument a.1 a.2 = some (d.update.setInput p.name i').update := by
    intro i i' hi hw
    simp only [Dialog.setArgument, hfind, hi, hw]
  by_cases hpg : some p.name = pageParam d.kind
  · obtain ⟨t, et⟩ := ht hpg
    obtain ⟨o, s, hc⟩ := hu.page p (by rw [e2]; exact hp) (by rw [e1]; exact hpg)
    have hw : write (.choice o s) a.2 = some (.choice o (if singleQuotes t ∈ o then some (singleQuotes t) else none)) := by rw [et]; rfl
    refine ⟨_, key _ _ hc hw, ?_⟩
    generalize hd2 : d.update.setInput p.name (.choice o (if singleQuotes t ∈ o then some (singleQuotes t) else none)) = d2
    have k1 : d2.kind = d.kind := by rw [← hd2]; exact e1
    have k2 : d2.params = d.params := by rw [← hd2]; exact e2
    have k3 : ∀ n, n ≠ p.name → d2.inputs n = d.update.inputs n := by intro n hn; rw [← hd2]; simp only [Dialog.setInput]; rw [if_neg hn]
    have k4 : d2.inputs p.name = some (.choice o (if singleQuotes t ∈ o then some (singleQuotes t) else none)) := by rw [← hd2]; simp [Dialog.setInput]
    have hr : Ready d2 := by
      constructor
      · rw [k1, k2]
        intro q hq hn'
        have : q.name ≠ p.name := fun e => hn' (by rw [e]; exact hpg)
        rw [k3 _ this]
        have := hu.inputs q (by rw [e2]; exact hq) (by rw [e1]; exact hn')
        exact this
      · rw [k1, k2]
        intro q hq hn'
        have : q.name = p.name := by rw [← hpg] at hn'; simpa using hn'
        rw [this, k4]
        exact ⟨_, _, rfl⟩
    obtain ⟨f1, f2, f3, f4, f5, f6⟩ := update_same d2
    refine ⟨hr.update, f1.trans k1, f2.trans k2, f3.trans (by rw [← hd2]; exact e3), f4.trans (by rw [← hd2]; exact e4),
      f5.trans (by rw [← hd2]; exact e5), ?_, ?_⟩
    · intro n hn' hne
      rw [f6 n (by rw [k1]; exact hn'), k3 n (fun e => hne (e.trans hn)), e6 n hn']
    · intro q hq e hn'
      exact absurd (by rw [huniq q hq e]; exact hpg) hn'
  · obtain ⟨i0, i, hf, hi, hl⟩ := hu.inputs p (by rw [e2]; exact hp) (by rw [e1]; exact hpg)
    obtain ⟨i', hw, hl', hsame⟩ := read_write (hs hpg) hf hl
    refine ⟨_, key _ _ hi hw, ?_⟩
    generalize hd2 : d.update.setInput p.name i' = d2
    have k1 : d2.kind = d.kind := by rw [← hd2]; exact e1
    have k2 : d2.params = d.params := by rw [← hd2]; exact e2
    have k3 : ∀ n, n ≠ p.name → d2.inputs n = d.update.inputs n := by intro n hn; rw [← hd2]; simp only [Dialog.setInput]; rw [if_neg hn]
    have k4 : d2.inputs p.name = some i' := by rw [← hd2]; simp [Dialog.setInput]
    have hr : Ready d2 := by
      constructor
      · rw [k1, k2]
        intro q hq hn'
        by_cases e : q.name = p.name
        · obtain rfl := huniq q hq (e.trans hn)
          exact ⟨i0, i', hf, k4, hl'⟩
        · rw [k3 _ e]
          exact hu.inputs q (by rw [e2]; exact hq) (by rw [e1]; exact hn')
      · rw [k1, k2]
        intro q hq hn'
        have : q.name ≠ p.name := fun e => hpg (by rw [← e]; exact hn')
        rw [k3 _ this]
        exact hu.page q (by rw [e2]; exact hq) (by rw [e1]; exact hn')
    obtain ⟨f1, f2, f3, f4, f5, f6⟩ := update_same d2
    refine ⟨hr.update, f1.trans k1, f2.trans k2, f3.trans (by rw [← hd2]; exact e3), f4.trans (by rw [← hd2]; exact e4),
      f5.trans (by rw [← hd2]; exact e5), ?_, ?_⟩
    · intro n hn' hne
      rw [f6 n (by rw [k1]; exact hn'), k3 n (fun e => hne (e.trans hn)), e6 n hn']
    · intro q hq e hn'
      obtain rfl := huniq q hq e
      rw [Dialog.value, f6 _ (by rw [k1]; exact hn'), k4]
      exact hsame

/-- All arguments. -/
theorem setArguments_spec (args : List (Text × Val)) {d : Dialog} (h : Ready d) (hd : Distinct d.params) (hn : (args.map Prod.fst).Nodup)
    (ha : ∀ a ∈ args, ArgOk d a) :
    ∃ d', d.setArguments args = some d' ∧ Ready d' ∧ d'.kind = d.kind ∧ d'.params = d.params ∧ d'.assign = d.assign ∧ d'.hold = d.hold ∧
      d'.pager = d.pager ∧ (∀ n, some n ≠ pageParam d.kind → n ∉ args.map Prod.fst → d'.inputs n = d.inputs n) ∧
      (∀ p ∈ d.params, some p.name ≠ pageParam d.kind → ∀ a ∈ args, p.name = a.1 → Same (d'.value p) (some a.2)) := by
  induction args generalizing d with
  | nil =>
    obtain ⟨e1, e2, e3, e4, e5, e6⟩ := update_same d
    exact ⟨_, rfl, h.update, e1, e2, e3, e4, e5, fun n hn _ => e6 n hn, by simp⟩
  | cons a args ih =>
    simp only [List.map_cons, List.nodup_cons] at hn
    obtain ⟨d1, s1, r1, k1, p1, a1, h1, g1, o1, v1⟩ := setArgument_spec h hd (ha a (by simp))
    obtain ⟨d2, s2, r2, k2, p2, a2, h2, g2, o2, v2⟩ := ih r1 (by rw [p1]; exact hd) hn.2 fun b hb => by
      have := ha b (by simp [hb])
      unfold ArgOk at this ⊢
      rw [k1, p1]
      exact this
    rw [k1] at o2 v2
    rw [p1] at v2
    refine ⟨d2, ?_, r2, k2.trans k1, p2.trans p1, a2.trans a1, h2.trans h1, g2.trans g1, ?_, ?_⟩
    · obtain ⟨n, v⟩ := a
      simp only [Dialog.setArguments, s1]
      exact s2
    · intro n hn' hne
      simp only [List.map_cons, List.mem_cons, not_or] at hne
      rw [o2 n hn' hne.2, o1 n hn' hne.1]
    · intro p hp hn' b hb e
      rcases List.mem_cons.1 hb with rfl | hb
      · rw [Dialog.value, o2 p.name hn' (by rw [e]; exact hn.1), ← Dialog.value]
        exact v1 p hp e hn'
      · exact v2 p hp hn' b hb e

/-! ### The dialog at the beginning -/

theorem inputsFor_spec {ps : List Param} (hd : Distinct ps) {f : Text → Option Input} (h : inputsFor none ps = some f) :
    ∀ p ∈ ps, ∃ i, fresh p = some i ∧ f p.name = some i := by
  induction ps generalizing f with
  | nil => simp
  | cons q ps ih =>
    simp only [Distinct, List.map_cons, List.nodup_cons] at hd
    simp only [inputsFor] at h
    cases h1 : inputFor none q with
    | none => rw [h1] at h; simp at h
    | some i =>
      cases h2 : inputsFor none ps with
      | none => rw [h1, h2] at h; simp at h
      | some g =>
        rw [h1, h2] at h
        simp only [Option.some.injEq] at h
        subst h
        intro p hp
        rcases List.mem_cons.1 hp with rfl | hp
        · refine ⟨i, ?_, by simp⟩
          unfold inputFor at h1
          cases hf : fresh p with
          | none => rw [hf] at h1; simp at h1
          | some j =>
            rw [hf] at h1
            simp only [ite_self] at h1
            exact h1
        · obtain ⟨j, a, b⟩ := ih hd.2 h2 p hp
          refine ⟨j, a, ?_⟩
          have : p.name ≠ q.name := fun e => hd.1 (by rw [← e]; exact List.mem_map_of_mem hp)
          simp only [if_neg this]
          exact b

theorem inputsFor_some {ps : List Param} (h : ∀ p ∈ ps, ∃ i, fresh p = some i) : ∃ f, inputsFor none ps = some f := by
  induction ps with
  | nil => exact ⟨_, rfl⟩
  | cons q ps ih =>
    obtain ⟨f, hf⟩ := ih fun p hp => h p (by simp [hp])
    obtain ⟨i, hi⟩ := h q (by simp)
    simp only [inputsFor, inputFor, hi, hf, ite_self]
    exact ⟨_, rfl⟩

theorem show_spec {kind : Kind} {ps : List Param} (hd : Distinct ps) (hf : ∀ p ∈ ps, ∃ i, fresh p = some i) (hp : PageParams kind ps) (sug : Text) :
    ∃ d, Dialog.show kind ps none sug = some d ∧ Ready d ∧ d.kind = kind ∧ d.params = ps ∧
      (∀ p ∈ ps, some p.name ≠ pageParam kind → d.inputs p.name = fresh p) := by
  obtain ⟨f, e⟩ := inputsFor_some hf
  have hs := inputsFor_spec hd e
  simp only [Dialog.show, e]
  generalize hd0 : (Dialog.mk kind ps f sug (oldHold none) (firstPager kind)) = d0
  have c1 : d0.kind = kind := by rw [← hd0]
  have c2 : d0.params = ps := by rw [← hd0]
  have c3 : d0.inputs = f := by rw [← hd0]
  have hr : Ready d0 := by
    constructor
    · rw [c2, c3]
      intro p hp _
      obtain ⟨i, a, b⟩ := hs p hp
      exact ⟨i, i, a, b, Like.refl i⟩
    · rw [c1, c2, c3]
      intro p hp' hn
      obtain ⟨i, a, b⟩ := hs p hp'
      have ht : typeOf p = some .selectPage := by simp [typeOf, hp.1 p hp' hn]
      simp only [fresh, ht, Option.some.injEq] at a
      exact ⟨_, _, by rw [b, ← a]⟩
  obtain ⟨e1, e2, -, -, -, e6⟩ := update_same d0
  refine ⟨_, rfl, hr.update, e1.trans c1, e2.trans c2, fun p hp' hn => ?_⟩
  rw [e6 _ (by rw [c1]; exact hn), c3]
  obtain ⟨i, a, b⟩ := hs p hp'
  rw [a, b]

/-! ### The result -/

/-- The result has the values of the inputs. -/
theorem effective_arguments {d : Dialog} (hd : Distinct d.params) {p : Param} (hp : p ∈ d.params) : effective p d.arguments = d.value p := by
  unfold effective Dialog.arguments
  have gen : ∀ ps : List Param, Distinct ps → p ∈ ps →
      (match ((ps.filter fun p => d.value p ≠ p.default.map Val.code).map fun p => (p.name, d.value p)).find? (fun a => a.1 = p.name) with
        | some a => a.2
        | none => p.default.map Val.code) = d.value p := by
    intro ps hd hp
    induction ps with
    | nil => simp at hp
    | cons q ps ih =>
      simp only [Distinct, List.map_cons, List.nodup_cons] at hd
      have none_rest : q.name ∉ ps.map Param.name →
          (((ps.filter fun p => d.value p ≠ p.default.map Val.code).map fun p => (p.name, d.value p)).find? (fun a => a.1 = q.name)) = none := by
        intro hq
        rw [List.find?_eq_none]
        intro x hx
        simp only [List.mem_map, List.mem_filter] at hx
        obtain ⟨r, ⟨hr, -⟩, rfl⟩ := hx
        simp only [decide_eq_true_eq]
        exact fun e => hq (by rw [← e]; exact List.mem_map_of_mem hr)
      rcases List.mem_cons.1 hp with rfl | hp
      · by_cases hv : d.value p = p.default.map Val.code
        · rw [List.filter_cons, if_neg (by simpa using hv), none_rest hd.1]
          exact hv.symm
        · rw [List.filter_cons, if_pos (by simpa using hv), List.map_cons, List.find?_cons]
          simp
      · have hne : q.name ≠ p.name := fun e => hd.1 (by rw [e]; exact List.mem_map_of_mem hp)
        have := ih hd.2 hp
        by_cases hv : d.value q = q.default.map Val.code
        · rw [List.filter_cons, if_neg (by simpa using hv)]
          exact this
        · rw [List.filter_cons, if_pos (by simpa using hv), List.map_cons, List.find?_cons]
          simp only [hne, decide_false]
          exact this
  exact gen d.params hd hp

end PySwitch.Properties
