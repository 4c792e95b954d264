import Verif.Spec.Editor

namespace PySwitch.Lemmas.Editor
open PySwitch.Editor PySwitch.Spec.Editor

/-! ### What is generated, without the side effects -/

mutual
def nodeOf : Data → Node
  | .code n => n
  | .list items => .list (itemsOf items)
  | .call name args none => .call name (argsOf args)
  | .call _ _ (some x) => .name x
  | .dict args none => .dict (elementsOf args)
  | .dict _ (some x) => .name x
  | .val value none => nodeOf value
  | .val _ (some x) => .name x

def itemsOf : Entries → Nodes
  | .nil => .nil
  | .cons _ value rest => .cons {} (nodeOf value) (itemsOf rest)

def argsOf : Entries → Nodes
  | .nil => .nil
  | .cons name value rest =>
    .cons { key := name.bind fun n => if n = "" then none else some n } (nodeOf value) (argsOf rest)

def elementsOf : Entries → Nodes
  | .nil => .nil
  | .cons name value rest =>
    .cons { key := some ("\"" ++ name.getD "" ++ "\"") } (nodeOf value) (elementsOf rest)
end

/-- The value given to the variable of a tree. -/
def rawOf : Data → Node
  | .call name args _ => .call name (argsOf args)
  | .dict args _ => .dict (elementsOf args)
  | .val value _ => nodeOf value
  | d => nodeOf d

def applyAll (top : String) (l : List (String × Data)) (body : List Stmt) : List Stmt :=
  l.foldl (fun b e => setAssignment e.1 (rawOf e.2) (some top) b) body

theorem applyAll_append (top l l' body) :
    applyAll top (l ++ l') body = applyAll top l' (applyAll top l body) := by
  simp [applyAll, List.foldl_append]

mutual
theorem generate_ok {argNames free top} : ∀ (d : Data) (body : List Stmt),
    Shown argNames free top d →
    generate top d body = .ok (nodeOf d, applyAll top (named d) body)
  | .code n, body, _ => by simp [generate, nodeOf, named, applyAll]
  | .list items, body, h => by
    simp only [Shown] at h
    simp [generate, generateItems_ok items body h, nodeOf, named]
  | .call name args assign, body, h => by
    simp only [Shown] at h
    cases assign with
    | none => simp [generate, generateArgs_ok args body h.1, nodeOf, named, resolveAssign]
    | some x =>
      simp [generate, generateArgs_ok args body h.1, nodeOf, named, resolveAssign,
        applyAll_append]
      simp [applyAll, rawOf]
  | .dict args assign, body, h => by
    simp only [Shown] at h
    cases assign with
    | none => simp [generate, generateElements_ok args body h.1, nodeOf, named, resolveAssign]
    | some x =>
      simp [generate, generateElements_ok args body h.1, nodeOf, named, resolveAssign,
        applyAll_append]
      simp [applyAll, rawOf]
  | .val value assign, body, h => by
    have hv : Shown argNames free top value ∧ value.truthy = true ∧ assign ≠ none := by
      match value, h with
      | .code (.name x), h => simp only [Shown] at h ⊢; exact ⟨h.1, rfl, h.2.1⟩
      | .code (.other x), h => simp only [Shown] at h ⊢; exact ⟨trivial, rfl, h.1⟩
      | .list (.cons a b c), h => simp only [Shown] at h ⊢; exact ⟨h.1, rfl, h.2.1⟩
    cases assign with
    | none => exact absurd rfl hv.2.2
    | some x =>
      simp [generate, hv.2.1, generate_ok value body hv.1, nodeOf, named, resolveAssign,
        applyAll_append]
      simp [applyAll, rawOf]

theorem generateItems_ok {argNames free top} : ∀ (d : Entries) (body : List Stmt),
    ShownItems argNames free top d →
    generateItems top d body = .ok (itemsOf d, applyAll top (namedIn d) body)
  | .nil, body, _ => by simp [generateItems, itemsOf, namedIn, applyAll]
  | .cons name value rest, body, h => by
    simp only [ShownItems] at h
    simp [generateItems, generate_ok value body h.2.1, generateItems_ok rest _ h.2.2, itemsOf,
      namedIn, applyAll_append]

theorem generateArgs_ok {argNames free top u} : ∀ (d : Entries) (body : List Stmt),
    ShownArgs argNames free top u d →
    generateArgs top d body = .ok (argsOf d, applyAll top (namedIn d) body)
  | .nil, body, _ => by simp [generateArgs, argsOf, namedIn, applyAll]
  | .cons name value rest, body, h => by
    simp only [ShownArgs] at h
    simp [generateArgs, generate_ok value body h.2.2.1, generateArgs_ok rest _ h.2.2.2, argsOf,
      namedIn, applyAll_append]

theorem generateElements_ok {argNames free top} : ∀ (d : Entries) (body : List Stmt),
    ShownElements argNames free top d →
    generateElements top d body = .ok (elementsOf d, applyAll top (namedIn d) body)
  | .nil, body, _ => by simp [generateElements, elementsOf, namedIn, applyAll]
  | .cons name value rest, body, h => by
    simp only [ShownElements] at h
    obtain ⟨⟨k, rfl, _⟩, h2, h3⟩ := h
    simp [generateElements, generate_ok value body h2, generateElements_ok rest _ h3, elementsOf,
      namedIn, applyAll_append]
end

/-! ### Looking up variables -/

theorem assigns_iff (x : String) (s : Stmt) : s.assigns x = true ↔ x ∈ targets s := by
  cases s <;> simp [Stmt.assigns, targets]

theorem any_assigns (x : String) (body : List Stmt) :
    body.any (Stmt.assigns x) = true ↔ Sets body x := by
  simp [Sets, assigns_iff]

theorem lookup_none (body : List Stmt) (x : String) : lookup body x = none ↔ ¬Sets body x := by
  simp only [lookup, List.findSome?_eq_none_iff, Sets]
  constructor
  · rintro h ⟨s, hs, hx⟩
    have := h s hs
    cases s <;> simp_all [targets]
  · intro h s hs
    have := fun hx => h ⟨s, hs, hx⟩
    cases s <;> simp_all [targets]

theorem lookup_mem {body : List Stmt} {x n} (h : lookup body x = some n) :
    ∃ ts, Stmt.assign ts n ∈ body ∧ x ∈ ts := by
  simp only [lookup] at h
  obtain ⟨s, hs, hx⟩ := List.exists_of_findSome?_eq_some h
  cases s with
  | assign ts v =>
    simp only [] at hx
    by_cases hc : x ∈ ts
    · simp [hc] at hx; subst hx; exact ⟨ts, hs, hc⟩
    · simp [hc] at hx
  | _ => simp at hx

theorem lookup_cons (s : Stmt) (body : List Stmt) (x : String) :
    lookup (s :: body) x = match s with
      | .assign ts v => if x ∈ ts then some v else lookup body x
      | _ => lookup body x := by
  cases s <;> simp [lookup]
  split <;> simp_all

/-- A statement with the value replaced if it sets the variable. -/
def swap (x : String) (value : Node) : Stmt → Stmt
  | .assign ts old => if ts.contains x then .assign ts value else .assign ts old
  | s => s

theorem replace_eq (x value body) : replace x value body = body.map (swap x value) := by
  simp only [replace]
  apply List.map_congr_left
  intro s _
  cases s <;> rfl

theorem targets_swap (x value s) : targets (swap x value s) = targets s := by
  cases s with
  | assign ts v => simp only [swap]; split <;> rfl
  | _ => rfl

theorem lookup_replace_same {x value} : ∀ {body : List Stmt}, Sets body x →
    lookup (replace x value body) x = some value
  | [], h => by simp [Sets] at h
  | s :: body, h => by
    rw [replace_eq, List.map_cons, lookup_cons]
    by_cases hs : x ∈ targets s
    · cases s <;> simp_all [swap, targets]
    · have hb : Sets body x := by
        obtain ⟨t, ht, hx⟩ := h
        simp at ht
        rcases ht with rfl | ht
        · exact absurd hx hs
        · exact ⟨t, ht, hx⟩
      have ih := lookup_replace_same (value := value) hb
      rw [replace_eq] at ih
      cases s <;> simp_all [swap, targets]

theorem lookup_replace_other {x y value} (hxy : y ≠ x) : ∀ {body : List Stmt}, OneEach body →
    lookup (replace x value body) y = lookup body y
  | [], _ => by simp [replace]
  | s :: body, h => by
    have ih := lookup_replace_other (value := value) hxy
      (body := body) (fun t ht => h t (List.mem_cons_of_mem _ ht))
    rw [replace_eq] at ih ⊢
    rw [List.map_cons, lookup_cons, lookup_cons]
    have h1 := h s (List.mem_cons_self ..)
    cases s with
    | assign ts v =>
      simp only [swap, targets] at *
      by_cases hx : x ∈ ts
      · have : y ∉ ts := by
          intro hy
          match ts, h1, hx, hy with
          | [a], _, hx, hy => simp at hx hy; exact hxy (hy.trans hx.symm)
        simp [hx, this, ih]
      · simp [hx, ih]
    | _ => simpa [swap] using ih

/-- What `add` puts for one statement. -/
def inserted (x : String) (value : Node) (b : String) (s : Stmt) : List Stmt :=
  if s.assigns b then [.assign [x] value, s] else [s]

theorem add_some (x value b body) :
    add x value (some b) body = body.flatMap (inserted x value b) := rfl

theorem lookup_add_same {x value b} : ∀ {body : List Stmt}, Sets body b → ¬Sets body x →
    lookup (add x value (some b) body) x = some value
  | [], h, _ => by simp [Sets] at h
  | s :: body, h, hx => by
    rw [add_some, List.flatMap_cons]
    have hxs : x ∉ targets s := fun hm => hx ⟨s, List.mem_cons_self .., hm⟩
    by_cases hs : s.assigns b = true
    · simp [inserted, hs, lookup_cons]
    · have hb : Sets body b := by
        obtain ⟨t, ht, hm⟩ := h
        simp at ht
        rcases ht with rfl | ht
        · rw [assigns_iff] at hs; exact absurd hm hs
        · exact ⟨t, ht, hm⟩
      have ih := lookup_add_same (value := value) hb
        (fun ⟨t, ht, hm⟩ => hx ⟨t, List.mem_cons_of_mem _ ht, hm⟩)
      rw [add_some] at ih
      simp only [inserted, hs, Bool.false_eq_true, if_false, List.cons_append, List.nil_append,
        lookup_cons]
      cases s <;> simp_all [targets]

theorem lookup_add_other {x y value b} (hxy : y ≠ x) : ∀ {body : List Stmt},
    lookup (add x value (some b) body) y = lookup body y
  | [] => rfl
  | s :: body => by
    have ih := lookup_add_other (value := value) (b := b) hxy (body := body)
    rw [add_some] at ih ⊢
    rw [List.flatMap_cons]
    by_cases hs : s.assigns b = true
    · simp only [inserted, hs, if_true, List.cons_append, List.nil_append, lookup_cons]
      cases s <;> simp_all
    · simp only [inserted, hs, Bool.false_eq_true, if_false, List.cons_append, List.nil_append,
        lookup_cons]
      cases s <;> simp_all

theorem sets_replace {x y value body} : Sets (replace x value body) y ↔ Sets body y := by
  rw [replace_eq]
  simp only [Sets, List.mem_map]
  constructor
  · rintro ⟨s, ⟨t, ht, rfl⟩, hy⟩
    exact ⟨t, ht, by rwa [targets_swap] at hy⟩
  · rintro ⟨t, ht, hy⟩
    exact ⟨_, ⟨t, ht, rfl⟩, by rwa [targets_swap]⟩

theorem sets_add {x y value b body} :
    Sets (add x value (some b) body) y ↔ Sets body y ∨ (y = x ∧ Sets body b) := by
  rw [add_some]
  constructor
  · rintro ⟨t, ht, hy⟩
    simp only [List.mem_flatMap] at ht
    obtain ⟨s, hs, ht⟩ := ht
    simp only [inserted] at ht
    split at ht
    · simp only [List.mem_cons, List.not_mem_nil, or_false] at ht
      rcases ht with rfl | rfl
      · right
        simp [targets] at hy
        exact ⟨hy, s, hs, (assigns_iff ..).1 ‹_›⟩
      · exact .inl ⟨t, hs, hy⟩
    · simp at ht; subst ht; exact .inl ⟨t, hs, hy⟩
  · rintro (⟨s, hs, hy⟩ | ⟨rfl, s, hs, hb⟩)
    · refine ⟨s, List.mem_flatMap.2 ⟨s, hs, ?_⟩, hy⟩
      simp only [inserted]; split <;> simp
    · refine ⟨.assign [y] value, List.mem_flatMap.2 ⟨s, hs, ?_⟩, by simp [targets]⟩
      simp [inserted, (assigns_iff b s).2 hb]

theorem oneEach_replace {x value body} (h : OneEach body) : OneEach (replace x value body) := by
  rw [replace_eq]
  intro s hs
  simp only [List.mem_map] at hs
  obtain ⟨t, ht, rfl⟩ := hs
  rw [targets_swap]; exact h t ht

theorem oneEach_add {x value b body} (h : OneEach body) :
    OneEach (add x value (some b) body) := by
  rw [add_some]
  intro s hs
  simp only [List.mem_flatMap, inserted] at hs
  obtain ⟨t, ht, hs⟩ := hs
  split at hs
  · simp at hs
    rcases hs with rfl | rfl
    · simp [targets]
    · exact h _ ht
  · simp at hs; subst hs; exact h _ ht

/-- One assignment which is set for the variable `x` of the tree. -/
theorem set_spec {x value top body} (h1 : OneEach body) (ht : Sets body top) :
    OneEach (setAssignment x value (some top) body) ∧
    (∀ y, Sets (setAssignment x value (some top) body) y ↔ Sets body y ∨ y = x) ∧
    lookup (setAssignment x value (some top) body) x = some value ∧
    ∀ y, y ≠ x → lookup (setAssignment x value (some top) body) y = lookup body y := by
  simp only [setAssignment]
  by_cases hx : Sets body x
  · rw [if_pos ((any_assigns x body).2 hx)]
    refine ⟨oneEach_replace h1, fun y => ?_, lookup_replace_same hx,
      fun y hy => lookup_replace_other hy h1⟩
    rw [sets_replace]
    constructor
    · exact .inl
    · rintro (h | rfl)
      · exact h
      · exact hx
  · rw [if_neg (fun h => hx ((any_assigns x body).1 h))]
    refine ⟨oneEach_add h1, fun y => ?_, lookup_add_same ht hx,
      fun y hy => lookup_add_other hy⟩
    rw [sets_add]
    simp [ht]

theorem applyAll_spec {top} : ∀ (l : List (String × Data)) {body : List Stmt}, OneEach body →
    Sets body top →
    (∀ x s t, (x, s) ∈ l → (x, t) ∈ l → s = t) →
    OneEach (applyAll top l body) ∧
    (∀ y, Sets (applyAll top l body) y ↔ Sets body y ∨ y ∈ l.map (·.1)) ∧
    (∀ x s, (x, s) ∈ l → lookup (applyAll top l body) x = some (rawOf s)) ∧
    ∀ y, y ∉ l.map (·.1) → lookup (applyAll top l body) y = lookup body y
  | [], body, h1, ht, _ => by simp [applyAll, h1]
  | (x, s) :: l, body, h1, ht, hc => by
    obtain ⟨a, b, c, d⟩ := set_spec (x := x) (value := rawOf s) h1 ht
    obtain ⟨a', b', c', d'⟩ := applyAll_spec l a ((b top).2 (.inl ht))
      (fun x s t hs ht => hc x s t (List.mem_cons_of_mem _ hs) (List.mem_cons_of_mem _ ht))
    refine ⟨a', fun y => ?_, fun y t hy => ?_, fun y hy => ?_⟩
    · show Sets (applyAll top l _) y ↔ _
      rw [b', b]; simp [or_assoc]
    · show lookup (applyAll top l _) y = _
      by_cases hm : y ∈ l.map (·.1)
      · simp only [List.mem_map] at hm
        obtain ⟨⟨y', t'⟩, hm, rfl⟩ := hm
        rw [c' _ _ hm, hc _ _ _ hy (List.mem_cons_of_mem _ hm)]
      · simp at hy
        rcases hy with ⟨rfl, rfl⟩ | hy
        · rw [d' _ hm, c]
        · exact absurd (List.mem_map.2 ⟨_, hy, rfl⟩) hm
    · show lookup (applyAll top l _) y = _
      simp at hy
      rw [d' _ (by simpa using hy.2), d _ hy.1]

/-! ### Reading what has been generated -/

theorem dropWhile_not_mem (l : List Char) (c : Char) (h : c ∉ l) : l.dropWhile (· == c) = l := by
  cases l with
  | nil => rfl
  | cons a l =>
    simp at h
    rw [List.dropWhile_cons_of_neg]
    simp; exact fun e => h.1 e.symm

theorem stripQuotes_quote (k : String) (h : PlainKey k) : stripQuotes ("\"" ++ k ++ "\"") = k := by
  have hl : ("\"" ++ k ++ "\"").toList = '"' :: (k.toList ++ ['"']) := by simp
  simp only [stripQuotes, hl]
  rw [List.dropWhile_cons_of_pos (by simp)]
  have hd : (k.toList ++ ['"']).dropWhile (· == '"') =
      if k.toList = [] then [] else k.toList ++ ['"'] := by
    cases hk : k.toList with
    | nil => simp
    | cons a l =>
      have : '"' ∉ a :: l := hk ▸ h.1
      simp at this
      simp only [List.cons_append, reduceCtorEq, if_false]
      rw [List.dropWhile_cons_of_neg]
      simp; exact fun e => this.1 e.symm
  rw [hd]
  split
  · rename_i he
    have : k = "" := by rw [← String.ofList_toList (s := k), he]
    subst this; simp
  · rw [List.reverse_append, List.reverse_cons, List.reverse_nil, List.nil_append,
      List.cons_append, List.dropWhile_cons_of_pos (by simp), List.nil_append,
      dropWhile_not_mem _ _ (by simpa using h.1), List.reverse_reverse, String.ofList_toList]

mutual
/-- How many variables are defined by means of each other. -/
def depth : Data → Nat
  | .code _ => 0
  | .list items => depthIn items
  | .call _ args a => depthIn args + a.toList.length
  | .dict args a => depthIn args + a.toList.length
  | .val value a => depth value + a.toList.length

def depthIn : Entries → Nat
  | .nil => 0
  | .cons _ value rest => max (depth value) (depthIn rest)
end

mutual
theorem depth_le : ∀ d : Data, depth d ≤ (named d).length
  | .code _ => by simp [depth]
  | .list items => by simpa [depth, named] using depthIn_le items
  | .call _ args a => by
    have := depthIn_le args
    cases a <;> simp [depth, named] <;> omega
  | .dict args a => by
    have := depthIn_le args
    cases a <;> simp [depth, named] <;> omega
  | .val value a => by
    have := depth_le value
    cases a <;> simp [depth, named] <;> omega

theorem depthIn_le : ∀ d : Entries, depthIn d ≤ (namedIn d).length
  | .nil => by simp [depthIn]
  | .cons _ value rest => by
    have := depth_le value
    have := depthIn_le rest
    simp [depthIn, namedIn]; omega
end

/-- `parse` in terms of `parseWith`, for any limit. -/
def resolver (argNames : String → List String) (body : List Stmt) (limit : Nat) (x : String) :
    Option (Except Err Data) :=
  match limit with
  | 0 => (lookup body x).map fun _ => .error .recursion
  | l + 1 => (lookup body x).map (parse argNames body l)

theorem parse_eq (argNames body limit n) :
    parse argNames body limit n = parseWith argNames (resolver argNames body limit) n := by
  cases limit <;> rfl

mutual
theorem parse_nodeOf {argNames free top body} (hfree : ∀ x, free x → lookup body x = none) :
    ∀ (d : Data) (limit : Nat), Shown argNames free top d → depth d ≤ limit →
    (∀ x s, (x, s) ∈ named d → lookup body x = some (rawOf s)) →
    parseWith argNames (resolver argNames body limit) (nodeOf d) = .ok d
  | .code n, limit, h, _, _ => by
    match n, h with
    | .name x, h =>
      simp only [Shown] at h
      have : resolver argNames body limit x = none := by
        cases limit <;> simp [resolver, hfree x h]
      simp [nodeOf, parseWith, this]
    | .other c, _ => simp [nodeOf, parseWith]
  | .list items, limit, h, hd, hl => by
    simp only [Shown] at h
    simp [nodeOf, parseWith, parse_itemsOf hfree items limit h hd hl]
  | .call name args none, limit, h, hd, hl => by
    simp only [Shown] at h
    have := parse_argsOf hfree args limit (argNames name) h.1 (by simpa [depth] using hd)
      (by simpa [named] using hl)
    simp [nodeOf, parseWith, this]
  | .dict args none, limit, h, hd, hl => by
    simp only [Shown] at h
    have := parse_elementsOf hfree args limit h.1 (by simpa [depth] using hd)
      (by simpa [named] using hl)
    simp [nodeOf, parseWith, this]
  | .val value none, limit, h, hd, hl => by
    match value, h with
    | .code (.name x), h => simp [Shown] at h
    | .code (.other x), h => simp [Shown] at h
    | .list (.cons a b c), h => simp [Shown] at h
  | .call name args (some x), limit, h, hd, hl => by
    simp only [Shown] at h
    simp [depth] at hd
    obtain ⟨l, rfl⟩ : ∃ l, limit = l + 1 := ⟨limit - 1, by omega⟩
    have hx := hl x (.call name args (some x)) (by simp [named])
    have := parse_argsOf hfree args l (argNames name) h.1 (by omega)
      (fun y s hy => hl y s (by simp [named, hy]))
    simp [nodeOf, parseWith, resolver, hx, rawOf, parse_eq, this, assigned]
  | .dict args (some x), limit, h, hd, hl => by
    simp only [Shown] at h
    simp [depth] at hd
    obtain ⟨l, rfl⟩ : ∃ l, limit = l + 1 := ⟨limit - 1, by omega⟩
    have hx := hl x (.dict args (some x)) (by simp [named])
    have := parse_elementsOf hfree args l h.1 (by omega)
      (fun y s hy => hl y s (by simp [named, hy]))
    simp [nodeOf, parseWith, resolver, hx, rawOf, parse_eq, this, assigned]
  | .val value (some x), limit, h, hd, hl => by
    simp [depth] at hd
    obtain ⟨l, rfl⟩ : ∃ l, limit = l + 1 := ⟨limit - 1, by omega⟩
    have hx := hl x (.val value (some x)) (by simp [named])
    have hv : Shown argNames free top value ∧ assigned x value = .val value (some x) := by
      match value, h with
      | .code (.name x), h => simp only [Shown] at h ⊢; exact ⟨h.1, rfl⟩
      | .code (.other x), h => simp only [Shown] at h ⊢; exact ⟨trivial, rfl⟩
      | .list (.cons a b c), h => simp only [Shown] at h ⊢; exact ⟨h.1, rfl⟩
    have := parse_nodeOf hfree value l hv.1 (by omega)
      (fun y s hy => hl y s (by simp [named, hy]))
    simp [nodeOf, parseWith, resolver, hx, rawOf, parse_eq, this, hv.2]

theorem parse_itemsOf {argNames free top body} (hfree : ∀ x, free x → lookup body x = none) :
    ∀ (d : Entries) (limit : Nat), ShownItems argNames free top d → depthIn d ≤ limit →
    (∀ x s, (x, s) ∈ namedIn d → lookup body x = some (rawOf s)) →
    parseItems argNames (resolver argNames body limit) (itemsOf d) = .ok d
  | .nil, _, _, _, _ => by simp [itemsOf, parseItems]
  | .cons name value rest, limit, h, hd, hl => by
    simp only [ShownItems] at h
    obtain ⟨rfl, h2, h3⟩ := h
    simp [depthIn] at hd
    have a := parse_nodeOf hfree value limit h2 (by omega)
      (fun y s hy => hl y s (by simp [namedIn, hy]))
    have b := parse_itemsOf hfree rest limit h3 (by omega)
      (fun y s hy => hl y s (by simp [namedIn, hy]))
    simp [itemsOf, parseItems, a, b]

theorem parse_argsOf {argNames free top body} (hfree : ∀ x, free x → lookup body x = none) :
    ∀ (d : Entries) (limit : Nat) (names : List String),
    ShownArgs argNames free top names.isEmpty d → depthIn d ≤ limit →
    (∀ x s, (x, s) ∈ namedIn d → lookup body x = some (rawOf s)) →
    parseArgs argNames (resolver argNames body limit) names (argsOf d) = .ok d
  | .nil, _, _, _, _, _ => by simp [argsOf, parseArgs]
  | .cons name value rest, limit, names, h, hd, hl => by
    simp only [ShownArgs] at h
    obtain ⟨h0, h1, h2, h3⟩ := h
    simp [depthIn] at hd
    have a := parse_nodeOf hfree value limit h2 (by omega)
      (fun y s hy => hl y s (by simp [namedIn, hy]))
    have b := parse_argsOf hfree rest limit names h3 (by omega)
      (fun y s hy => hl y s (by simp [namedIn, hy]))
    cases name with
    | none =>
      have : names = [] := by simpa using h1
      subst this
      simp [argsOf, parseArgs, a, b]
    | some k =>
      have : k ≠ "" := fun e => h0 (by rw [e])
      simp [argsOf, parseArgs, a, b, this]

theorem parse_elementsOf {argNames free top body} (hfree : ∀ x, free x → lookup body x = none) :
    ∀ (d : Entries) (limit : Nat), ShownElements argNames free top d → depthIn d ≤ limit →
    (∀ x s, (x, s) ∈ namedIn d → lookup body x = some (rawOf s)) →
    parseElements argNames (resolver argNames body limit) (elementsOf d) = .ok d
  | .nil, _, _, _, _ => by simp [elementsOf, parseElements]
  | .cons name value rest, limit, h, hd, hl => by
    simp only [ShownElements] at h
    obtain ⟨⟨k, rfl, hk⟩, h2, h3⟩ := h
    simp [depthIn] at hd
    have a := parse_nodeOf hfree value limit h2 (by omega)
      (fun y s hy => hl y s (by simp [namedIn, hy]))
    have b := parse_elementsOf hfree rest limit h3 (by omega)
      (fun y s hy => hl y s (by simp [namedIn, hy]))
    simp [elementsOf, parseElements, a, b, stripQuotes_quote k hk]
end

mutual
theorem variables_plain {argNames free top} : ∀ (d : Data), Shown argNames free top d →
    ∀ x s, (x, s) ∈ named d → x ≠ top ∧ x ≠ ""
  | .code _, _, x, s, hm => by simp [named] at hm
  | .list items, h, x, s, hm => by
    simp only [Shown] at h
    exact variables_plain_items items h x s (by simpa [named] using hm)
  | .call name args a, h, x, s, hm => by
    simp only [Shown] at h
    simp only [named, List.mem_append] at hm
    rcases hm with hm | hm
    · exact variables_plain_args args h.1 x s hm
    · cases a with
      | none => simp at hm
      | some y =>
        simp at hm
        obtain ⟨rfl, _⟩ := hm
        exact ⟨fun e => h.2.2 (by rw [e]), fun e => h.2.1 (by rw [e])⟩
  | .dict args a, h, x, s, hm => by
    simp only [Shown] at h
    simp only [named, List.mem_append] at hm
    rcases hm with hm | hm
    · exact variables_plain_elements args h.1 x s hm
    · cases a with
      | none => simp at hm
      | some y =>
        simp at hm
        obtain ⟨rfl, _⟩ := hm
        exact ⟨fun e => h.2.2 (by rw [e]), fun e => h.2.1 (by rw [e])⟩
  | .val value a, h, x, s, hm => by
    have hv : Shown argNames free top value ∧ PlainAssign top a := by
      match value, h with
      | .code (.name x), h => simp only [Shown] at h ⊢; exact ⟨h.1, h.2.2⟩
      | .code (.other x), h => simp only [Shown] at h ⊢; exact ⟨trivial, h.2⟩
      | .list (.cons a b c), h => simp only [Shown] at h ⊢; exact ⟨h.1, h.2.2⟩
    simp only [named, List.mem_append] at hm
    rcases hm with hm | hm
    · exact variables_plain value hv.1 x s hm
    · cases a with
      | none => simp at hm
      | some y =>
        simp at hm
        obtain ⟨rfl, _⟩ := hm
        exact ⟨fun e => hv.2.2 (by rw [e]), fun e => hv.2.1 (by rw [e])⟩

theorem variables_plain_items {argNames free top} : ∀ (d : Entries),
    ShownItems argNames free top d → ∀ x s, (x, s) ∈ namedIn d → x ≠ top ∧ x ≠ ""
  | .nil, _, x, s, hm => by simp [namedIn] at hm
  | .cons _ value rest, h, x, s, hm => by
    simp only [ShownItems] at h
    simp only [namedIn, List.mem_append] at hm
    rcases hm with hm | hm
    · exact variables_plain value h.2.1 x s hm
    · exact variables_plain_items rest h.2.2 x s hm

theorem variables_plain_args {argNames free top u} : ∀ (d : Entries),
    ShownArgs argNames free top u d → ∀ x s, (x, s) ∈ namedIn d → x ≠ top ∧ x ≠ ""
  | .nil, _, x, s, hm => by simp [namedIn] at hm
  | .cons _ value rest, h, x, s, hm => by
    simp only [ShownArgs] at h
    simp only [namedIn, List.mem_append] at hm
    rcases hm with hm | hm
    · exact variables_plain value h.2.2.1 x s hm
    · exact variables_plain_args rest h.2.2.2 x s hm

theorem variables_plain_elements {argNames free top} : ∀ (d : Entries),
    ShownElements argNames free top d → ∀ x s, (x, s) ∈ namedIn d → x ≠ top ∧ x ≠ ""
  | .nil, _, x, s, hm => by simp [namedIn] at hm
  | .cons _ value rest, h, x, s, hm => by
    simp only [ShownElements] at h
    simp only [namedIn, List.mem_append] at hm
    rcases hm with hm | hm
    · exact variables_plain value h.2.1 x s hm
    · exact variables_plain_elements rest h.2.2 x s hm
end

/-! ### Invariants of generating -/

theorem resolve_inv {P : List Stmt → Prop} {top a node} {xs : List String} {body n body'}
    (hP : ∀ x ∈ xs, ∀ v b, P b → P (setAssignment x v (some top) b))
    (h : resolveAssign top a node body = (n, body')) (ha : ∀ x, a = some x → x ∈ xs)
    (hb : P body) : P body' := by
  cases a with
  | none => simp [resolveAssign] at h; rw [← h.2]; exact hb
  | some x => simp [resolveAssign] at h; rw [← h.2]; exact hP x (ha x rfl) _ _ hb

mutual
/-- What setting the variables of the tree keeps, saving the tree keeps. -/
theorem generate_inv {P : List Stmt → Prop} {top : String} {xs : List String}
    (hP : ∀ x ∈ xs, ∀ v b, P b → P (setAssignment x v (some top) b)) :
    ∀ (d : Data) (body : List Stmt) (n : Node) (body' : List Stmt),
    generate top d body = .ok (n, body') → (∀ x s, (x, s) ∈ named d → x ∈ xs) →
    P body → P body'
  | .code n, body, n', body', h, _, hb => by simp [generate] at h; rw [← h.2]; exact hb
  | .list items, body, n, body', h, hx, hb => by
    simp only [generate] at h
    split at h
    · rename_i he; cases h
      exact generateItems_inv hP items body _ _ he (by simpa [named] using hx) hb
    · cases h
  | .call name args a, body, n, body', h, hx, hb => by
    simp only [generate] at h
    split at h
    · rename_i he
      simp at h
      refine resolve_inv hP h (fun x ha => hx x (.call name args a) (by subst ha; simp [named])) ?_
      exact generateArgs_inv hP args body _ _ he (fun x s hm => hx x s (by simp [named, hm])) hb
    · cases h
  | .dict args a, body, n, body', h, hx, hb => by
    simp only [generate] at h
    split at h
    · rename_i he
      simp at h
      refine resolve_inv hP h (fun x ha => hx x (.dict args a) (by subst ha; simp [named])) ?_
      exact generateElements_inv hP args body _ _ he (fun x s hm => hx x s (by simp [named, hm])) hb
    · cases h
  | .val value none, body, n, body', h, hx, hb => by
    simp only [generate] at h
    exact generate_inv hP value body n body' h (by simpa [named] using hx) hb
  | .val value (some y), body, n, body', h, hx, hb => by
    simp only [generate] at h
    split at h
    · split at h
      · rename_i he
        simp at h
        refine resolve_inv hP h
          (fun x ha => hx x (.val value (some y)) (by cases ha; simp [named])) ?_
        exact generate_inv hP value body _ _ he (fun x s hm => hx x s (by simp [named, hm])) hb
      · cases h
    · cases h

theorem generateItems_inv {P : List Stmt → Prop} {top : String} {xs : List String}
    (hP : ∀ x ∈ xs, ∀ v b, P b → P (setAssignment x v (some top) b)) :
    ∀ (d : Entries) (body : List Stmt) (n : Nodes) (body' : List Stmt),
    generateItems top d body = .ok (n, body') → (∀ x s, (x, s) ∈ namedIn d → x ∈ xs) →
    P body → P body'
  | .nil, body, n, body', h, _, hb => by simp [generateItems] at h; rw [← h.2]; exact hb
  | .cons name value rest, body, n, body', h, hx, hb => by
    simp only [generateItems] at h
    split at h
    · cases h
    · rename_i he
      split at h
      · rename_i hr; cases h
        exact generateItems_inv hP rest _ _ _ hr (fun x s hm => hx x s (by simp [namedIn, hm]))
          (generate_inv hP value body _ _ he (fun x s hm => hx x s (by simp [namedIn, hm])) hb)
      · cases h

theorem generateArgs_inv {P : List Stmt → Prop} {top : String} {xs : List String}
    (hP : ∀ x ∈ xs, ∀ v b, P b → P (setAssignment x v (some top) b)) :
    ∀ (d : Entries) (body : List Stmt) (n : Nodes) (body' : List Stmt),
    generateArgs top d body = .ok (n, body') → (∀ x s, (x, s) ∈ namedIn d → x ∈ xs) →
    P body → P body'
  | .nil, body, n, body', h, _, hb => by simp [generateArgs] at h; rw [← h.2]; exact hb
  | .cons name value rest, body, n, body', h, hx, hb => by
    simp only [generateArgs] at h
    split at h
    · cases h
    · rename_i he
      split at h
      · rename_i hr; cases h
        exact generateArgs_inv hP rest _ _ _ hr (fun x s hm => hx x s (by simp [namedIn, hm]))
          (generate_inv hP value body _ _ he (fun x s hm => hx x s (by simp [namedIn, hm])) hb)
      · cases h

theorem generateElements_inv {P : List Stmt → Prop} {top : String} {xs : List String}
    (hP : ∀ x ∈ xs, ∀ v b, P b → P (setAssignment x v (some top) b)) :
    ∀ (d : Entries) (body : List Stmt) (n : Nodes) (body' : List Stmt),
    generateElements top d body = .ok (n, body') → (∀ x s, (x, s) ∈ namedIn d → x ∈ xs) →
    P body → P body'
  | .nil, body, n, body', h, _, hb => by simp [generateElements] at h; rw [← h.2]; exact hb
  | .cons none value rest, body, n, body', h, _, _ => by simp [generateElements] at h
  | .cons (some name) value rest, body, n, body', h, hx, hb => by
    simp only [generateElements] at h
    split at h
    · cases h
    · rename_i he
      split at h
      · rename_i hr; cases h
        exact generateElements_inv hP rest _ _ _ hr (fun x s hm => hx x s (by simp [namedIn, hm]))
          (generate_inv hP value body _ _ he (fun x s hm => hx x s (by simp [namedIn, hm])) hb)
      · cases h
end

end PySwitch.Lemmas.Editor
