import Verif.Spec.LabelCallback
/-!
C179: the callback of a label in the display editor.
-/
namespace PySwitch.Props
open PySwitch.LabelCallback PySwitch.LabelCallback.Spec
open PySwitch.Properties (Text lit Param defaultValue)

namespace C179

theorem set_same (defs : List Definition) (n : Text) (args : List (Text × Text)) : setCallback defs (some (.call n args)) n = some (.call n args) := by
  simp [setCallback]

theorem set_empty (defs : List Definition) (v : Option Val) (h : ¬ has v []) : setCallback defs v [] = some (.code (lit "None")) := by
  unfold setCallback
  rcases v with _ | ⟨t⟩ | ⟨n, args⟩
  · rfl
  · rfl
  · have : n ≠ [] := fun e => h ⟨args, by rw [e]⟩
    simp [this]

theorem set_other (defs : List Definition) (v : Option Val) (n : Text) (hn : n ≠ []) (h : ¬ has v n) :
    setCallback defs v n = some (.call n (match getDefinition defs n with | none => [] | some d => required d)) := by
  unfold setCallback
  rcases v with _ | ⟨t⟩ | ⟨m, args⟩
  · cases hg : getDefinition defs n <;> simp [hn]
  · cases hg : getDefinition defs n <;> simp [hn]
  · have : m ≠ n := fun e => h ⟨args, by rw [e]⟩
    cases hg : getDefinition defs n <;> simp [hn, this]

end C179

/-- C179, choosing: after the user has entered the name of a callback, the label has this callback and the dialog shows its name. If it is another callback
than before, it gets exactly its parameters without default. Nothing is changed if it is the same. Missing: the name `None`, which the dialog shows for labels
without callback (`C179_none_witness`). -/
theorem C179_choose_partial (defs : List Definition) (v : Option Val) (name : Text) (hn : name ≠ []) (_ : name ≠ lit "None") :
    has (setCallback defs v name) name ∧ shown (setCallback defs v name) = name ∧
    (has v name → setCallback defs v name = v) ∧
    (∀ d, ¬ has v name → getDefinition defs name = some d → ∀ args, setCallback defs v name = some (.call name args) →
      args.map (·.1) = (d.params.filter fun p => p.default = none).map (·.name)) := by
  by_cases h : has v name
  · obtain ⟨args, rfl⟩ := h
    rw [C179.set_same]
    exact ⟨⟨args, rfl⟩, rfl, fun _ => rfl, fun d h' => absurd ⟨args, rfl⟩ h'⟩
  · rw [C179.set_other defs v name hn h]
    refine ⟨⟨_, rfl⟩, rfl, fun h' => absurd h' h, ?_⟩
    intro d _ hd args ha
    rw [hd] at ha
    simp only [Option.some.injEq, Val.call.injEq, true_and] at ha
    rw [← ha, required, List.map_map]
    rfl

/-- C179, removing: after the user has cleared the input, the label has no callback. -/
theorem C179_remove (defs : List Definition) (v : Option Val) (h : ¬ has v []) : hasNone (setCallback defs v []) :=
  .inr (C179.set_empty defs v h)

/-- If the user enters `None` for a label with a callback (the text shown for labels without one), the code calls `None`, and the controller stops with an
exception. -/
theorem C179_none_witness (defs : List Definition) (hd : ∀ d ∈ defs, d.name ≠ lit "None") (name : Text) (hn : name ≠ lit "None") (args : List (Text × Text)) :
    shown none = lit "None" ∧ setCallback defs (some (.call name args)) (lit "None") = some (.call (lit "None") []) := by
  refine ⟨rfl, ?_⟩
  have hg : getDefinition defs (lit "None") = none := by
    rw [getDefinition, List.find?_eq_none]; intro d h; simp [hd d h]
  rw [C179.set_other defs _ _ (by decide) (by rintro ⟨a, e⟩; exact hn (by simpa using (Val.call.inj (Option.some.inj e)).1)), hg]

/-- C179, the parameters: a new callback gets each parameter which has no default in the code, with the value the editor suggests for it, in their order. -/
theorem C179_values (defs : List Definition) (v : Option Val) (name : Text) (hn : name ≠ []) (h : ¬ has v name) (d : Definition) (hd : getDefinition defs name = some d) :
    ∃ args, setCallback defs v name = some (.call name args) ∧ args.length = (d.params.filter fun p => p.default = none).length ∧
      ∀ (k : Nat) (p : Param), (d.params.filter fun p => p.default = none)[k]? = some p → args[k]? = some (p.name, (defaultValue p).getD []) := by
  refine ⟨required d, ?_, by simp [required], ?_⟩
  · rw [C179.set_other defs v name hn h, hd]
  · intro k p hk
    simp only [required, List.getElem?_map, hk, Option.map_some]

/-- If the callback is a variable, the input of the dialog is empty, as if there was none. -/
theorem C179_variable_witness (t : Text) (_ : t ≠ []) : shown (some (.code t)) = [] := rfl

example : lit "my_callback" ≠ [] := by decide

/-! ### Cases -/

/-- Callbacks of `web/htdocs/definitions/callbacks.json`. -/
def c179Defs : List Definition :=
  [⟨lit "KemperTempoDisplayCallback", []⟩, ⟨lit "KemperRigNameCallback", [⟨lit "show_name", some (lit "True"), {}, none⟩]⟩,
    ⟨lit "SplashesCallback", [⟨lit "splashes", none, {}, none⟩]⟩]

example : setCallback c179Defs (some (.call (lit "KemperRigNameCallback") [(lit "show_name", lit "False")])) (lit "KemperRigNameCallback") =
      some (.call (lit "KemperRigNameCallback") [(lit "show_name", lit "False")]) ∧
    setCallback c179Defs none (lit "KemperRigNameCallback") = some (.call (lit "KemperRigNameCallback") []) ∧
    setCallback c179Defs none (lit "SplashesCallback") = some (.call (lit "SplashesCallback") [(lit "splashes", lit "None")]) ∧
    setCallback c179Defs none (lit "Mine") = some (.call (lit "Mine") []) := by decide +kernel

example : (∀ d ∈ c179Defs, d.name ≠ lit "None") ∧ ¬ has (some (.call (lit "Mine") [])) [] := by
  refine ⟨by decide +kernel, ?_⟩
  rintro ⟨a, e⟩
  cases e

end PySwitch.Props
