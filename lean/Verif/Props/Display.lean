import Verif.Lemmas.Display
import Verif.Props.Layout
/-
Properties of display trees: C55.
-/
namespace PySwitch.Props
open PySwitch PySwitch.Layout

/-- C55. Initialising a tree leaves no element uninitialised, whatever state it was in. -/
theorem C55_all (e : Elem) (i : Info) (cs : List Elem) (h : e.init.Contains (.node i cs)) : i.flag = true :=
  (initialized_iff _).1 (init_initialized e) i cs h

/-- C55. Initialising a new tree initialises each element exactly once. -/
theorem C55_once (e : Elem) (he : Fresh e) (i : Info) (cs : List Elem) (h : e.init.Contains (.node i cs)) : i.inits = 1 :=
  (init_fresh e he i cs h).2

/-- C55. The tree reports to be initialised exactly if all elements are. -/
theorem C55_initialized (e : Elem) : e.initialized = true ↔ ∀ i cs, e.Contains (.node i cs) → i.flag = true :=
  initialized_iff e

/-- C55. The flat list of a tree contains each element as often as it is in the tree, and nothing else. -/
theorem C55_flat (e : Elem) (x : Info) :
    (x ∈ e.contentsFlat ↔ ∃ cs, e.Contains (.node x cs)) ∧ e.contentsFlat.count x = e.occurrences x :=
  ⟨mem_flat x e, count_flat x e⟩

/-- C55. Over any history of showing trees and adding new elements to them, no element without children is ever initialised
twice. -/
theorem C55_never_twice (roots : List Elem) (hr : ∀ e ∈ roots, Fresh e) (es : List UiEvent)
    (hc : ∀ k p c, UiEvent.add k p c ∈ es → Fresh c) (e : Elem)
    (he : e ∈ (UiState.run ⟨roots, none, none, []⟩ es).roots) (i : Info) (h : e.Contains (.node i [])) :
    i.inits = if i.flag then 1 else 0 := by
  have hfresh : ∀ e : Elem, Fresh e → All Counted e := by
    intro e h i cs hx
    have := h i cs hx
    exact ⟨fun _ => this.2, fun hf => by rw [this.1] at hf; simp at hf, fun _ => by rw [this.2]; omega⟩
  have := run_counted es ⟨roots, none, none, []⟩ (fun e he => hfresh e (hr e he))
    (fun k p c hm => hfresh c (hc k p c hm)) e he i [] h
  cases hf : i.flag with
  | true => have h1 := this.2.1 hf; have h2 := this.2.2 rfl; simp; omega
  | false => simp [this.1 hf]

/-- C55, as long as nothing is added to a tree while it is shown: after any history of changing the tree to be shown and
adding elements, the tree which has been asked for last is on the display, all its elements are initialised, and exactly
those of its elements which need updates are updated. -/
theorem C55_shown_partial (roots : List Elem) (es : List UiEvent) (k : Nat)
    (hs : ∀ j, UiEvent.show j ∈ es ++ [.show k] → j < roots.length) (hl : NoLateAdds none (es ++ [.show k])) :
    let st := UiState.run ⟨roots, none, none, []⟩ (es ++ [.show k])
    st.shown = some k ∧ ∃ e, st.roots[k]? = some e ∧ (∀ i cs, e.Contains (.node i cs) → i.flag = true) ∧
      ∀ id, id ∈ st.updateables ↔ ∃ i cs, e.Contains (.node i cs) ∧ i.updateable = true ∧ i.id = id := by
  intro st
  have hall := run_complete (es ++ [.show k]) ⟨roots, none, none, []⟩ hs hl (by simp)
  have hcur : st.current = some k := by
    have hpre : ∀ (es : List UiEvent) (s : UiState), (s.run es).roots.length = s.roots.length := by
      intro es
      induction es with
      | nil => intro s; rfl
      | cons ev es ih =>
        intro s
        show ((s.step ev).run es).roots.length = _
        rw [ih]
        cases ev with
        | «show» j => exact show_length s j
        | add j p c => simp [UiState.step]
    have hstep : st = (UiState.run ⟨roots, none, none, []⟩ es).show k := by
      show List.foldl _ _ _ = _
      rw [List.foldl_append]
      rfl
    have hk : k < (UiState.run ⟨roots, none, none, []⟩ es).roots.length := by
      rw [hpre]; exact hs k (by simp)
    rw [hstep]
    unfold UiState.show
    by_cases h : (UiState.run ⟨roots, none, none, []⟩ es).current = some k
    · rw [if_pos h]; exact h
    · rw [if_neg h]
      have hr : (UiState.run ⟨roots, none, none, []⟩ es).roots[k]? = some (UiState.run ⟨roots, none, none, []⟩ es).roots[k] :=
        List.getElem?_eq_getElem hk
      simp only [hr]
  have hc := hall k hcur
  obtain ⟨e, h1, h2, h3⟩ := hc.tree
  refine ⟨hc.disp, e, h1, (initialized_iff e).1 h2, ?_⟩
  intro id
  have h3' : st.updateables = (e.contentsFlat.filter (·.updateable)).map (·.id) := h3
  rw [h3']
  simp only [List.mem_map, List.mem_filter, mem_flat]
  constructor
  · rintro ⟨i, ⟨⟨cs, hcs⟩, hu⟩, rfl⟩; exact ⟨i, cs, hcs, hu, rfl⟩
  · rintro ⟨i, cs, hcs, hu, rfl⟩; exact ⟨i, ⟨⟨cs, hcs⟩, hu⟩, rfl⟩

/-- A tree with two labels and the indicator dot, and one for the tuner. -/
def mainTree : Elem := .node { id := 0, bounds := screen } [aLabel 1, .missing, .node { id := 2 } [aLabel 3],
  .node { id := 4, updateable := true } []]
def tunerTree : Elem := .node { id := 10, updateable := true, bounds := screen } [aLabel 11]

example : (UiState.run ⟨[mainTree, tunerTree], none, none, []⟩ [.show 0, .add 1 [] (aLabel 12), .show 1, .show 0]).updateables
    = [4] := by decide +kernel
example : NoLateAdds none ([.show 0, .add 1 [] (aLabel 12), .show 1] ++ [.show 0]) := by simp [NoLateAdds]
example : Fresh tunerTree := by
  intro i cs h
  rcases (contains_iff _ _ _).1 h with h | ⟨c, hc, h⟩
  · cases h; exact ⟨rfl, rfl⟩
  · simp only [List.mem_singleton] at hc
    subst hc
    rcases (contains_iff _ _ _).1 h with h | ⟨c, hc, _⟩
    · cases h; exact ⟨rfl, rfl⟩
    · simp at hc

/-- C55. An element added to a tree while it is shown is not initialised, even if the tree is shown again: only showing
another tree in between helps. -/
theorem C55_late_child :
    let st := UiState.run ⟨[mainTree, tunerTree], none, none, []⟩ [.show 0, .add 0 [] (.node { id := 9, updateable := true } []), .show 0]
    st.roots.map Elem.initialized = [false, false] ∧ st.updateables = [4] ∧
    (st.run [.show 1, .show 0]).roots.map Elem.initialized = [true, true] ∧
    (st.run [.show 1, .show 0]).updateables = [4, 9] := by decide +kernel

/-- C55. Elements with children can be initialised again, when something has been added below: here the element with id 2
and the root. Derived classes which register or draw something in `init` (such as the tuner display) do this twice then. -/
theorem C55_container_again :
    ((UiState.run ⟨[mainTree, tunerTree], none, none, []⟩
      [.show 0, .show 1, .add 0 [2] (aLabel 9), .show 0]).roots.map
        (fun e => e.contentsFlat.map (fun i => (i.id, i.inits)))) =
      [[(0, 2), (1, 1), (2, 2), (3, 1), (9, 1), (4, 1)], [(10, 1), (11, 1)]] := by decide +kernel

end PySwitch.Props
