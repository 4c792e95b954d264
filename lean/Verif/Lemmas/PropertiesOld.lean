import Verif.Lemmas.PropertiesNames

/-!
The dialog when another action is selected: values are taken over.
-/

namespace PySwitch.Properties
open Spec

theorem inputsFor_old {old : Option Dialog} {ps : List Param} (hd : Distinct ps) {f : Text → Option Input} (h : inputsFor old ps = some f) :
    ∀ p ∈ ps, ∃ i, inputFor old p = some i ∧ f p.name = some i := by
  induction ps generalizing f with
  | nil => simp
  | cons q ps ih =>
    simp only [Distinct, List.map_cons, List.nodup_cons] at hd
    simp only [inputsFor] at h
    cases h1 : inputFor old q with
    | none => rw [h1] at h; simp at h
    | some i =>
      cases h2 : inputsFor old ps with
      | none => rw [h1, h2] at h; simp at h
      | some g =>
        rw [h1, h2] at h
        simp only [Option.some.injEq] at h
        subst h
        intro p hp
        rcases List.mem_cons.1 hp with rfl | hp
        · exact ⟨i, h1, by simp⟩
        · obtain ⟨j, a, b⟩ := ih hd.2 h2 p hp
          refine ⟨j, a, ?_⟩
          have : p.name ≠ q.name := fun e => hd.1 (by rw [← e]; exact List.mem_map_of_mem hp)
          simp only [if_neg this]
          exact b

theorem inputsFor_opens {old : Option Dialog} {ps : List Param} (h : ∀ p ∈ ps, ∃ i, inputFor old p = some i) : ∃ f, inputsFor old ps = some f := by
  induction ps with
  | nil => exact ⟨_, rfl⟩
  | cons q ps ih =>
    obtain ⟨f, hf⟩ := ih fun p hp => h p (by simp [hp])
    obtain ⟨i, hi⟩ := h q (by simp)
    simp only [inputsFor, hi, hf]
    exact ⟨_, rfl⟩

/-- The inputs after the selection. -/
theorem show_inputs {kind : Kind} {ps : List Param} {old : Option Dialog} {sug : Text} {d : Dialog} (hd : Distinct ps)
    (h : Dialog.show kind ps old sug = some d) :
    (∀ p ∈ ps, some p.name ≠ pageParam kind → d.inputs p.name = inputFor old p) ∧ d.hold = oldHold old ∧ d.assign = sug := by
  unfold Dialog.show at h
  cases hf : inputsFor old ps with
  | none => rw [hf] at h; simp at h
  | some f =>
    rw [hf] at h
    simp only [Option.some.injEq] at h
    subst h
    obtain ⟨-, -, e3, e4, -, e6⟩ := update_same ⟨kind, ps, f, sug, oldHold old, firstPager kind⟩
    refine ⟨fun p hp hn => ?_, e4, e3⟩
    rw [e6 _ hn]
    obtain ⟨i, a, b⟩ := inputsFor_old hd hf p hp
    exact b.trans a.symm

theorem inputFor_taken {o : Dialog} {p q : Param} {v : Val} (ht : p.md.type ≠ some .text) (hq : o.param p.name = some q)
    (hv : o.value q = some v) (hne : some v ≠ (defaultValue q).map Val.code) {i : Input} (hi : fresh p = some i) :
    inputFor (some o) p = write i v := by
  have ht' : typeOf p ≠ some .text := fun e => ht (text_type.1 e)
  unfold inputFor
  simp only [hi, if_neg ht', hq]
  rw [Dialog.value] at hv
  simp only [hv, if_neg hne]

theorem inputFor_fresh {old : Option Dialog} {p : Param} (h : p.md.type = some .text ∨ ∀ o, old = some o → ∀ q, o.param p.name = some q →
    ∀ v, o.value q = some v → some v = (defaultValue q).map Val.code) : inputFor old p = fresh p := by
  unfold inputFor
  cases hi : fresh p with
  | none => rfl
  | some i =>
    simp only
    split
    · rfl
    · rename_i ht
      rcases h with h | h
      · exact absurd (text_type.2 h) ht
      · cases old with
        | none => rfl
        | some o =>
          simp only
          cases hq : o.param p.name with
          | none => rfl
          | some q =>
            simp only
            cases hv : (o.inputs q.name).bind (read q) with
            | none => rfl
            | some v => simp only [if_pos (h o rfl q hq v hv)]

end PySwitch.Properties
