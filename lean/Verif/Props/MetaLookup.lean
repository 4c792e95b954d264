import Verif.Spec.MetaLookup
/-!
C190: Functions and parameters of the catalogues get the meta information which is written for them.
-/
namespace PySwitch.Props
open PySwitch.MetaLookup PySwitch.MetaLookup.Spec

namespace C190

variable {F D : Type}

theorem entities_some (func : Name) : ∀ (es : List (FunctionDef F D)) (e : FunctionDef F D), searchEntities func es = some e → e ∈ es ∧ e.entityName = func
  | [], e, h => by cases h
  | x :: xs, e, h => by
    rw [searchEntities] at h
    split at h
    · rename_i hx; cases Option.some.inj h; exact ⟨List.mem_cons_self, hx⟩
    · obtain ⟨h1, h2⟩ := entities_some func xs e h; exact ⟨List.mem_cons_of_mem _ h1, h2⟩

theorem entities_none (func : Name) : ∀ (es : List (FunctionDef F D)), searchEntities func es = none → ∀ e ∈ es, e.entityName ≠ func
  | [], _, e, he => by cases he
  | x :: xs, h, e, he => by
    rw [searchEntities] at h
    split at h
    · cases h
    · rename_i hx
      rcases List.mem_cons.mp he with rfl | he
      · exact hx
      · exact entities_none func xs h e he

theorem function_some (client func : Name) : ∀ (m : List (ClientDef F D)) (e : FunctionDef F D), searchFunctionDefinition client func m = some e → Has m client func e
  | [], e, h => by cases h
  | c :: cs, e, h => by
    have tail : searchFunctionDefinition client func cs = some e → Has (c :: cs) client func e := fun h => by
      obtain ⟨c', hc, h⟩ := function_some client func cs e h
      exact ⟨c', List.mem_cons_of_mem _ hc, h⟩
    rw [searchFunctionDefinition] at h
    by_cases hc : c.client = client
    · rw [if_neg (by simpa using hc)] at h
      cases hs : searchEntities func c.entities with
      | none => rw [hs] at h; exact tail h
      | some x =>
        rw [hs] at h
        cases Option.some.inj h
        exact ⟨c, List.mem_cons_self, hc, entities_some func _ _ hs⟩
    · rw [if_pos hc] at h; exact tail h

theorem function_none (client func : Name) : ∀ (m : List (ClientDef F D)), searchFunctionDefinition client func m = none → ∀ e, ¬ Has m client func e
  | [], _, e, ⟨c, hc, _⟩ => by cases hc
  | c :: cs, h, e, ⟨c', hc', hcl, he, hf⟩ => by
    rw [searchFunctionDefinition] at h
    by_cases hc : c.client = client
    · rw [if_neg (by simpa using hc)] at h
      cases hs : searchEntities func c.entities with
      | some x => rw [hs] at h; cases h
      | none =>
        rw [hs] at h
        rcases List.mem_cons.mp hc' with rfl | hc'
        · exact entities_none func _ hs e he hf
        · exact function_none client func cs h e ⟨c', hc', hcl, he, hf⟩
    · rw [if_pos hc] at h
      rcases List.mem_cons.mp hc' with rfl | hc'
      · exact hc hcl
      · exact function_none client func cs h e ⟨c', hc', hcl, he, hf⟩

theorem parameters_some (param : Name) : ∀ (ps : List (ParameterDef D)) (d : D), searchParameters param ps = some d → ⟨param, d⟩ ∈ ps
  | [], d, h => by cases h
  | ⟨n, x⟩ :: ps, d, h => by
    rw [searchParameters] at h
    split at h
    · rename_i hn
      cases Option.some.inj h
      cases hn
      exact List.mem_cons_self
    · exact List.mem_cons_of_mem _ (parameters_some param ps d h)

theorem parameters_none (param : Name) : ∀ (ps : List (ParameterDef D)), searchParameters param ps = none → ∀ d, (⟨param, d⟩ : ParameterDef D) ∉ ps
  | [], _, d, hd => by cases hd
  | p :: ps, h, d, hd => by
    rw [searchParameters] at h
    split at h
    · cases h
    · rename_i hn
      rcases List.mem_cons.mp hd with rfl | hd
      · exact hn rfl
      · exact parameters_none param ps h d hd

theorem search_some {m : List (ClientDef F D)} {client func param : Name} {d : D} (h : searchParameterDefinition m client func param = some d) :
    Defines m client func param d := by
  unfold searchParameterDefinition at h
  cases hf : searchFunctionDefinition client func m with
  | none => rw [hf] at h; cases h
  | some e => rw [hf] at h; exact ⟨e, function_some _ _ _ _ hf, parameters_some _ _ _ h⟩

theorem search_none {m : List (ClientDef F D)} (hu : Unique m) {client func param : Name} (h : searchParameterDefinition m client func param = none) (d : D) :
    ¬ Defines m client func param d := by
  rintro ⟨e, he, hp⟩
  unfold searchParameterDefinition at h
  cases hf : searchFunctionDefinition client func m with
  | none => exact function_none _ _ _ hf e he
  | some e' =>
    rw [hf] at h
    cases hu.1 _ _ _ _ he (function_some _ _ _ _ hf)
    exact parameters_none _ _ h d hp

theorem function_filter (client func : Name) : ∀ (m : List (ClientDef F D)),
    searchFunctionDefinition client func (m.filter fun c => c.client = client) = searchFunctionDefinition client func m
  | [] => rfl
  | c :: cs => by
    by_cases hc : c.client = client
    · rw [List.filter_cons_of_pos (by simpa using hc), searchFunctionDefinition, searchFunctionDefinition, function_filter client func cs]
    · rw [List.filter_cons_of_neg (by simpa using hc), function_filter client func cs]
      conv => rhs; rw [searchFunctionDefinition, if_pos hc]

end C190

/-- A parameter has the information `d` exactly if the file defines it for this parameter of this function of this client, or if it does not define this at all and `d` is the default of the client for
parameters of this name. -/
theorem C190_parameter {F D : Type} (file : List (ClientDef F D)) (hu : Unique file) (client func param : Name) (d : D) :
    getParameterMeta file client func param = some d ↔
      Defines file client func param d ∨ ((∀ x, ¬ Defines file client func param x) ∧ Defines file client "default".toList param d) := by
  unfold getParameterMeta
  cases h : searchParameterDefinition file client func param with
  | some x =>
    have hx := C190.search_some h
    constructor
    · rintro h; cases Option.some.inj h; exact .inl hx
    · rintro (hd | ⟨hn, _⟩)
      · rw [hu.2 _ _ _ _ _ hx hd]
      · exact absurd hx (hn x)
  | none =>
    have hn := C190.search_none hu h
    simp only
    cases h2 : searchParameterDefinition file client "default".toList param with
    | some x =>
      have hx := C190.search_some h2
      constructor
      · rintro h; cases Option.some.inj h; exact .inr ⟨hn, hx⟩
      · rintro (hd | ⟨_, hd⟩)
        · exact absurd hd (hn d)
        · rw [hu.2 _ _ _ _ _ hx hd]
    | none =>
      have hn2 := C190.search_none hu h2
      constructor
      · intro h; cases h
      · rintro (hd | ⟨_, hd⟩)
        · exact absurd hd (hn d)
        · exact absurd hd (hn2 d)

/-- A function has exactly the information the file has for this function of this client; there is no default. -/
theorem C190_function {F D : Type} (file : List (ClientDef F D)) (hu : Unique file) (client func : Name) (f : F) :
    getFunctionMeta file client func = some f ↔ ∃ e, Has file client func e ∧ e.data = f := by
  unfold getFunctionMeta
  cases h : searchFunctionDefinition client func file with
  | none =>
    constructor
    · intro h; cases h
    · rintro ⟨e, he, _⟩; exact absurd he (C190.function_none _ _ _ h e)
  | some x =>
    have hx := C190.function_some _ _ _ _ h
    constructor
    · intro h; exact ⟨x, hx, Option.some.inj h⟩
    · rintro ⟨e, he, rfl⟩; rw [hu.1 _ _ _ _ hx he]; rfl

/-- What the file says about other clients is irrelevant, even if names are not unique: all information is the same if it is removed. -/
theorem C190_clients {F D : Type} (file : List (ClientDef F D)) (client : Name) (data : List Entry) :
    mixIn (file.filter fun c => c.client = client) client data = mixIn file client data := by
  simp only [mixIn, getFunctionMeta, getParameterMeta, searchParameterDefinition, C190.function_filter]

/-- The catalogue keeps its functions and parameters in their order, each with its own information. -/
theorem C190_catalogue {F D : Type} (file : List (ClientDef F D)) (client : Name) (data : List Entry) :
    (mixIn file client data).map (fun m => (⟨m.name, m.parameters.map (·.1)⟩ : Entry)) = data ∧
    ∀ m ∈ mixIn file client data, m.info = getFunctionMeta file client m.name ∧ ∀ p ∈ m.parameters, p.2 = getParameterMeta file client m.name p.1 := by
  constructor
  · unfold mixIn
    rw [List.map_map]
    conv => rhs; rw [← List.map_id data]
    apply List.map_congr_left
    intro e _
    simp [Function.comp_def]
  · intro m hm
    obtain ⟨e, _, rfl⟩ := List.mem_map.mp hm
    refine ⟨rfl, fun p hp => ?_⟩
    obtain ⟨n, _, rfl⟩ := List.mem_map.mp hp
    rfl

/-- A file with two clients, a function and a default: the function's own parameter, the default for another function, and nothing for the other client. -/
example : let file : List (ClientDef Nat Nat) := [⟨"kemper".toList, [⟨"TUNER".toList, 1, [⟨"mode".toList, 2⟩]⟩, ⟨"default".toList, 3, [⟨"mode".toList, 4⟩]⟩]⟩, ⟨"local".toList, []⟩]
    Unique file ∧ getParameterMeta file "kemper".toList "TUNER".toList "mode".toList = some 2 ∧
    getParameterMeta file "kemper".toList "OTHER".toList "mode".toList = some 4 ∧ getParameterMeta file "local".toList "TUNER".toList "mode".toList = none := by
  refine ⟨⟨?_, ?_⟩, by decide +kernel, by decide +kernel, by decide +kernel⟩
  · rintro cl f e e' ⟨c, hc, h1, h2, h3⟩ ⟨c', hc', h1', h2', h3'⟩
    simp only [List.mem_cons, List.not_mem_nil, or_false] at hc hc'
    rcases hc with rfl | rfl
    · rcases hc' with rfl | rfl
      · simp only [List.mem_cons, List.not_mem_nil, or_false] at h2 h2'
        rcases h2 with rfl | rfl <;> rcases h2' with rfl | rfl <;> first | rfl | (exact absurd (h3.trans h3'.symm) (by decide +kernel))
      · cases h2'
    · cases h2
  · rintro cl f p d d' ⟨e, ⟨c, hc, h1, h2, h3⟩, h4⟩ ⟨e', ⟨c', hc', h1', h2', h3'⟩, h4'⟩
    simp only [List.mem_cons, List.not_mem_nil, or_false] at hc hc'
    rcases hc with rfl | rfl
    · rcases hc' with rfl | rfl
      · simp only [List.mem_cons, List.not_mem_nil, or_false] at h2 h2'
        rcases h2 with rfl | rfl <;> rcases h2' with rfl | rfl <;>
          first
          | (exact absurd (h3.trans h3'.symm) (by decide +kernel))
          | (simp only [List.mem_cons, List.not_mem_nil, or_false, ParameterDef.mk.injEq] at h4 h4'; exact h4.2.trans h4'.2.symm)
      · cases h2'
    · cases h2

end PySwitch.Props
