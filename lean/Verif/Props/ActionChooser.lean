import Verif.Model.ActionChooser
/-!
C185: The dialog for actions offers the right ones and edits the right one.
-/
namespace PySwitch.Props
open PySwitch.ActionChooser

namespace C185

theorem mem_offered (target : Text) (clients : List (List Action)) (a : Action) :
    a ∈ offered target clients ↔ (∃ c ∈ clients, a ∈ c) ∧ a.target = target := by
  induction clients with
  | nil => simp [offered]
  | cons c cs ih =>
    rw [offered, List.mem_append, List.mem_filter, ih]
    simp only [beq_iff_eq, List.mem_cons]
    constructor
    · rintro (⟨h1, h2⟩ | ⟨⟨d, hd, h1⟩, h2⟩)
      · exact ⟨⟨c, .inl rfl, h1⟩, h2⟩
      · exact ⟨⟨d, .inr hd, h1⟩, h2⟩
    · rintro ⟨⟨d, rfl | hd, h1⟩, h2⟩
      · exact .inl ⟨h1, h2⟩
      · exact .inr ⟨⟨d, hd, h1⟩, h2⟩

theorem count_offered (target : Text) (clients : List (List Action)) (a : Action) (h : a.target = target) :
    (offered target clients).count a = clients.flatten.count a := by
  induction clients with
  | nil => rfl
  | cons c cs ih =>
    rw [offered, List.count_append, ih, List.flatten_cons, List.count_append, List.count_filter (by simp [h])]

theorem named_none (name : Text) (entries : List Action) (h : ∀ a ∈ entries, a.name ≠ name) : named name entries = none := by
  rw [named]
  split
  · rfl
  · suffices hs : ∀ f : Option Action, entries.foldl (fun found a => if a.name = name then some a else found) f = f from hs none
    intro f
    induction entries generalizing f with
    | nil => rfl
    | cons a as ih =>
      rw [List.foldl_cons, if_neg (h a List.mem_cons_self)]
      exact ih (fun x hx => h x (List.mem_cons_of_mem _ hx)) f

theorem named_some (entries : List Action) (a : Action) (hn : a.name ≠ []) (ha : a ∈ entries) (hu : ∀ x ∈ entries, x.name = a.name → x = a) :
    named a.name entries = some a := by
  rw [named, if_neg hn]
  suffices hs : ∀ f : Option Action, (f = some a ∨ a ∈ entries) → entries.foldl (fun found x => if x.name = a.name then some x else found) f = some a from hs none (.inr ha)
  clear ha
  intro f hf
  induction entries generalizing f with
  | nil => rcases hf with rfl | hf
           · rfl
           · cases hf
  | cons x xs ih =>
    rw [List.foldl_cons]
    refine ih (fun y hy => hu y (List.mem_cons_of_mem _ hy)) _ ?_
    by_cases hx : x.name = a.name
    · rw [if_pos hx, hu x List.mem_cons_self hx]; exact .inl rfl
    · rw [if_neg hx]
      rcases hf with rfl | hf
      · exact .inl rfl
      · rcases List.mem_cons.mp hf with rfl | hf
        · exact absurd rfl hx
        · exact .inr hf

theorem preselect_known (entries : List Action) (a : Action) (hn : a.name ≠ []) (ha : a ∈ entries) (hu : ∀ x ∈ entries, x.name = a.name → x = a) :
    preselect (some a.name) entries = some a := by
  unfold preselect
  split
  · rename_i b
    rcases List.mem_singleton.mp ha with rfl
    rfl
  · exact named_some entries a hn ha hu

end C185

/-- The actions which are offered for an input are exactly those of all clients which are for its type of hardware, each as often as it is in the catalogue. -/
theorem C185_offered (target : Text) (clients : List (List Action)) (a : Action) :
    (a ∈ offered target clients ↔ (∃ c ∈ clients, a ∈ c) ∧ a.target = target) ∧
    (a.target = target → (offered target clients).count a = clients.flatten.count a) :=
  ⟨C185.mem_offered target clients a, C185.count_offered target clients a⟩

/-- If an action which is the only one with its name for this hardware is edited, the dialog shows its properties with the values of the edited action; committing gives this
action again. -/
theorem C185_known (clients : List (List Action)) (target : Text) (a : Action) (x : Existing) (hc : ∃ c ∈ clients, a ∈ c) (ht : a.target = target) (hn : a.name ≠ []) (hx : x.name = a.name)
    (hu : ∀ c ∈ clients, ∀ b ∈ c, b.target = target → b.name = a.name → b = a) (hp : ∀ n ∈ x.args, n ∈ a.params) :
    (prompt clients target (some x)).panel = .properties a (some x) ∧ (prompt clients target (some x)).commit = some a := by
  have hp' : preselect (some a.name) (offered target clients) = some a := by
    refine C185.preselect_known _ a hn ((C185.mem_offered _ _ _).mpr ⟨hc, ht⟩) fun b hb hbn => ?_
    obtain ⟨⟨c, hc, hbc⟩, hbt⟩ := (C185.mem_offered _ _ _).mp hb
    exact hu c hc b hbc hbt hbn
  have hf : fills a x = true := by
    simp only [fills, List.all_eq_true, List.contains_iff_mem]
    exact hp
  have he : prompt clients target (some x) = ⟨.properties a (some x), true⟩ := by
    simp only [prompt, Option.map_some, hx]
    rw [hp']
    simp only [hf]
  rw [he]
  exact ⟨rfl, rfl⟩

example : ∃ (clients : List (List Action)) (a : Action) (x : Existing), (∃ c ∈ clients, a ∈ c) ∧ a.name ≠ [] ∧ x.name = a.name ∧
    (∀ c ∈ clients, ∀ b ∈ c, b.target = a.target → b.name = a.name → b = a) ∧ ∀ n ∈ x.args, n ∈ a.params :=
  ⟨[[⟨['A'], ['S'], [['p']]⟩, ⟨['A'], ['E'], []⟩], [⟨['B'], ['S'], []⟩]], ⟨['A'], ['S'], [['p']]⟩, ⟨['A'], [['p']]⟩, by decide, by decide, by decide, by decide, by decide⟩

/-- If an action is edited which is not in the list, and there is not exactly one action in it, then the dialog says that the action can be edited in the source code only, and
the button does nothing. Missing: lists with one action. -/
theorem C185_unknown_partial (clients : List (List Action)) (target : Text) (x : Existing) (h : ∀ c ∈ clients, ∀ a ∈ c, a.target = target → a.name ≠ x.name)
    (h1 : (offered target clients).length ≠ 1) :
    (prompt clients target (some x)).panel = .sourceOnly x.name ∧ (prompt clients target (some x)).commit = none := by
  have hn := C185.named_none x.name (offered target clients) fun a ha => by
    obtain ⟨⟨c, hc, hac⟩, hat⟩ := (C185.mem_offered _ _ _).mp ha
    exact h c hc a hac hat
  have hp : preselect (some x.name) (offered target clients) = none := by
    unfold preselect
    split
    · rename_i a e; rw [e] at h1; exact absurd rfl h1
    · exact hn
  have he : prompt clients target (some x) = ⟨.sourceOnly x.name, true⟩ := by
    simp only [prompt, Option.map_some]
    rw [hp]
  rw [he]
  exact ⟨rfl, rfl⟩

example : (∀ c ∈ [[(⟨['A'], ['S'], []⟩ : Action), ⟨['B'], ['S'], []⟩]], ∀ a ∈ c, a.target = ['S'] → a.name ≠ ['X']) ∧
    (offered ['S'] [[⟨['A'], ['S'], []⟩, ⟨['B'], ['S'], []⟩]]).length ≠ 1 := by decide

/-- When an action is added, nothing is committed before one is selected, unless there is only one. Afterwards, the selected one is committed. -/
theorem C185_add (clients : List (List Action)) (target : Text) :
    ((offered target clients).length ≠ 1 → (prompt clients target none).commit = none) ∧
    (∀ a, offered target clients = [a] → (prompt clients target none).commit = some a) ∧
    (∀ (as : List Action) (a : Action), (as.foldl Dialog.select (prompt clients target none) |>.select a).commit = some a) := by
  have hb : (prompt clients target none).button = true := by
    simp only [prompt]
    split <;> rfl
  have hsel : ∀ (d : Dialog) (a : Action), (d.select a).button = d.button ∧ ∃ x, (d.select a).panel = .properties a x := by
    intro d a
    rw [Dialog.select]
    split <;> exact ⟨rfl, _, rfl⟩
  refine ⟨fun h => ?_, fun a h => ?_, fun as a => ?_⟩
  · have hp : preselect none (offered target clients) = none := by
      unfold preselect
      split
      · rename_i a e; rw [e] at h; exact absurd rfl h
      · rfl
    simp only [prompt, Option.map_none]
    rw [hp]
    rfl
  · simp only [prompt, Option.map_none, h]
    rfl
  · have hall : ∀ (as : List Action) (d : Dialog), (as.foldl Dialog.select d).button = d.button := by
      intro as
      induction as with
      | nil => intro d; rfl
      | cons y ys ih => intro d; rw [List.foldl_cons, ih, (hsel d y).1]
    obtain ⟨h1, z, h2⟩ := hsel (as.foldl Dialog.select (prompt clients target none)) a
    rw [Dialog.commit, h1, hall, hb, h2]
    rfl

/-- If there is one action for the hardware only, as for pedals, then the dialog for any other action shows this one, and committing replaces the action by it. -/
theorem C185_single_witness : ∃ (clients : List (List Action)) (target : Text) (x : Existing) (a : Action), (∀ c ∈ clients, ∀ b ∈ c, b.name ≠ x.name) ∧
    (prompt clients target (some x)).panel = .properties a (some x) ∧ (prompt clients target (some x)).commit = some a :=
  ⟨[["AnalogAction".toList].map fun n => ⟨n, "AdafruitPotentiometer".toList, ["mapping".toList, "max_value".toList]⟩], "AdafruitPotentiometer".toList, ⟨"MyPedal".toList, ["mapping".toList]⟩,
    ⟨"AnalogAction".toList, "AdafruitPotentiometer".toList, ["mapping".toList, "max_value".toList]⟩, by decide +kernel, by decide +kernel, by decide +kernel⟩

end PySwitch.Props
