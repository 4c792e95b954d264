import Verif.Model.ProxyNames
import Verif.Spec.ProxyNames
import Verif.Lemmas.Editor
import Verif.Lemmas.Checks
/-!
C209: the kinds of proxies.
-/
namespace PySwitch.Props
open PySwitch.Editor
open PySwitch.ProxyNames
open PySwitch.Lemmas.Editor (parse_eq resolver)
open PySwitch.Spec.ProxyNames

namespace C209

mutual
theorem crawl_eq (x : String) : ∀ d : Data, crawl x d = (objects d).find? fun n => decide (assignOf n = some x)
  | .code _ => by simp [crawl, objects]
  | .list items => by rw [crawl, objects]; exact crawlAll_eq x items
  | .call name args a => by
    rw [crawl, objects, List.find?_cons, crawlAll_eq x args]
    by_cases h : a = some x <;> simp [assignOf, h]
  | .dict args a => by
    rw [crawl, objects, List.find?_cons, crawlAll_eq x args]
    by_cases h : a = some x <;> simp [assignOf, h]
  | .val value a => by
    rw [crawl, objects, List.find?_cons, crawl_eq x value]
    by_cases h : a = some x <;> simp [assignOf, h]

theorem crawlAll_eq (x : String) : ∀ d : Entries, crawlAll x d = (objectsIn d).find? fun n => decide (assignOf n = some x)
  | .nil => by simp [crawlAll, objectsIn]
  | .cons _ d rest => by
    rw [crawlAll, objectsIn, List.find?_append, ← crawl_eq x d, ← crawlAll_eq x rest]
    cases crawl x d <;> rfl
end

theorem assigned_assign (x : String) (d : Data) : assignOf (assigned x d) = some x := by cases d <;> rfl

theorem assigned_objects (x : String) (d n : Data) (h : n ∈ objects (assigned x d)) : n = assigned x d ∨ n ∈ objects d := by
  cases d with
  | code c => simpa [assigned, objects] using h
  | list items => simpa [assigned, objects] using h
  | call name args a =>
    rcases List.mem_cons.1 h with h | h
    · exact Or.inl h
    · exact Or.inr (List.mem_cons_of_mem _ h)
  | dict args a =>
    rcases List.mem_cons.1 h with h | h
    · exact Or.inl h
    · exact Or.inr (List.mem_cons_of_mem _ h)
  | val value a =>
    rcases List.mem_cons.1 h with h | h
    · exact Or.inl h
    · exact Or.inr (List.mem_cons_of_mem _ h)

/-- All objects which are assigned to a variable are its value. -/
def Good (R : String → Data → Prop) (l : List Data) : Prop := ∀ n ∈ l, ∀ x, assignOf n = some x → ∃ v, R x v ∧ n = assigned x v

theorem good_cons {R l n} (h : Good R l) (hn : assignOf n = none) : Good R (n :: l) := by
  intro m hm x hx
  rcases List.mem_cons.1 hm with rfl | hm
  · rw [hn] at hx; exact absurd hx (by simp)
  · exact h m hm x hx

theorem good_append {R l l'} (h : Good R l) (h' : Good R l') : Good R (l ++ l') := by
  intro m hm
  rcases List.mem_append.1 hm with hm | hm
  · exact h m hm
  · exact h' m hm

section
variable {argNames : String → List String} {resolve : String → Option (Except Err Data)} {R : String → Data → Prop}

mutual
theorem parse_good (hres : ∀ id d, resolve id = some (.ok d) → Good R (objects d) ∧ R id d) :
    ∀ (n : Node) (d : Data), parseWith argNames resolve n = .ok d → Good R (objects d)
  | .name id, d, h => by
    rw [parseWith] at h
    cases hr : resolve id with
    | none => rw [hr] at h; cases h; intro n hn; simp [objects] at hn
    | some r =>
      rw [hr] at h
      cases r with
      | error e => cases h
      | ok v =>
        cases h
        obtain ⟨hg, hR⟩ := hres id v hr
        intro n hn x hx
        rcases assigned_objects id v n hn with rfl | hn
        · rw [assigned_assign] at hx
          cases hx
          exact ⟨v, hR, rfl⟩
        · exact hg n hn x hx
  | .call func args, d, h => by
    rw [parseWith] at h
    cases ha : parseArgs argNames resolve (argNames func) args with
    | error e => rw [ha] at h; cases h
    | ok es => rw [ha] at h; cases h; exact good_cons (args_good hres _ args es ha) rfl
  | .dict elements, d, h => by
    rw [parseWith] at h
    cases ha : parseElements argNames resolve elements with
    | error e => rw [ha] at h; cases h
    | ok es => rw [ha] at h; cases h; exact good_cons (elements_good hres elements es ha) rfl
  | .list items, d, h => by
    rw [parseWith] at h
    cases ha : parseItems argNames resolve items with
    | error e => rw [ha] at h; cases h
    | ok es => rw [ha] at h; cases h; exact items_good hres items es ha
  | .other code, d, h => by
    rw [parseWith] at h; cases h; intro n hn; simp [objects] at hn

theorem args_good (hres : ∀ id d, resolve id = some (.ok d) → Good R (objects d) ∧ R id d) :
    ∀ (free : List String) (l : Nodes) (es : Entries), parseArgs argNames resolve free l = .ok es → Good R (objectsIn es)
  | _, .nil, es, h => by rw [parseArgs] at h; cases h; intro n hn; simp [objectsIn] at hn
  | free, .cons label node rest, es, h => by
    rw [parseArgs] at h
    cases hd : parseWith argNames resolve node with
    | error e => rw [hd] at h; cases h
    | ok d =>
      rw [hd] at h
      simp only at h
      cases hk : label.key with
      | some k =>
        rw [hk] at h
        simp only at h
        cases hr : parseArgs argNames resolve free rest with
        | error e => rw [hr] at h; cases h
        | ok r => rw [hr] at h; cases h; exact good_append (parse_good hres node d hd) (args_good hres free rest r hr)
      | none =>
        rw [hk] at h
        simp only at h
        cases hr : parseArgs argNames resolve free.tail rest with
        | error e => rw [hr] at h; cases h
        | ok r => rw [hr] at h; cases h; exact good_append (parse_good hres node d hd) (args_good hres free.tail rest r hr)

theorem elements_good (hres : ∀ id d, resolve id = some (.ok d) → Good R (objects d) ∧ R id d) :
    ∀ (l : Nodes) (es : Entries), parseElements argNames resolve l = .ok es → Good R (objectsIn es)
  | .nil, es, h => by rw [parseElements] at h; cases h; intro n hn; simp [objectsIn] at hn
  | .cons label node rest, es, h => by
    rw [parseElements] at h
    cases hk : label.key with
    | none => rw [hk] at h; cases h
    | some k =>
      rw [hk] at h
      simp only at h
      cases hd : parseWith argNames resolve node with
      | error e => rw [hd] at h; cases h
      | ok d =>
        rw [hd] at h
        simp only at h
        cases hr : parseElements argNames resolve rest with
        | error e => rw [hr] at h; cases h
        | ok r => rw [hr] at h; cases h; exact good_append (parse_good hres node d hd) (elements_good hres rest r hr)

theorem items_good (hres : ∀ id d, resolve id = some (.ok d) → Good R (objects d) ∧ R id d) :
    ∀ (l : Nodes) (es : Entries), parseItems argNames resolve l = .ok es → Good R (objectsIn es)
  | .nil, es, h => by rw [parseItems] at h; cases h; intro n hn; simp [objectsIn] at hn
  | .cons label node rest, es, h => by
    rw [parseItems] at h
    cases hd : parseWith argNames resolve node with
    | error e => rw [hd] at h; cases h
    | ok d =>
      rw [hd] at h
      simp only at h
      cases hr : parseItems argNames resolve rest with
      | error e => rw [hr] at h; cases h
      | ok r => rw [hr] at h; cases h; exact good_append (parse_good hres node d hd) (items_good hres rest r hr)
end

/-- The object is in the list. -/
def In (x : String) (l : List Data) : Prop := ∃ n ∈ l, assignOf n = some x

theorem in_left {x l l'} (h : In x l) : In x (l ++ l') := let ⟨n, hn, e⟩ := h; ⟨n, List.mem_append_left _ hn, e⟩
theorem in_right {x l l'} (h : In x l') : In x (l ++ l') := let ⟨n, hn, e⟩ := h; ⟨n, List.mem_append_right _ hn, e⟩
theorem in_cons {x l n} (h : In x l) : In x (n :: l) := let ⟨m, hn, e⟩ := h; ⟨m, List.mem_cons_of_mem _ hn, e⟩

mutual
theorem parse_uses {x : String} (hx : resolve x ≠ none) :
    ∀ (n : Node) (d : Data), parseWith argNames resolve n = .ok d → Uses x n → In x (objects d)
  | .name id, d, h, hu => by
    rw [Uses] at hu
    subst hu
    rw [parseWith] at h
    cases hr : resolve id with
    | none => exact absurd hr hx
    | some r =>
      rw [hr] at h
      cases r with
      | error e => cases h
      | ok v =>
        cases h
        refine ⟨assigned id v, ?_, assigned_assign id v⟩
        cases v <;> simp [assigned, objects]
  | .call func args, d, h, hu => by
    rw [parseWith] at h
    rw [Uses] at hu
    cases ha : parseArgs argNames resolve (argNames func) args with
    | error e => rw [ha] at h; cases h
    | ok es => rw [ha] at h; cases h; exact in_cons (args_uses hx _ args es ha hu)
  | .dict elements, d, h, hu => by
    rw [parseWith] at h
    rw [Uses] at hu
    cases ha : parseElements argNames resolve elements with
    | error e => rw [ha] at h; cases h
    | ok es => rw [ha] at h; cases h; exact in_cons (elements_uses hx elements es ha hu)
  | .list items, d, h, hu => by
    rw [parseWith] at h
    rw [Uses] at hu
    cases ha : parseItems argNames resolve items with
    | error e => rw [ha] at h; cases h
    | ok es => rw [ha] at h; cases h; exact items_uses hx items es ha hu
  | .other code, d, h, hu => by rw [Uses] at hu; exact hu.elim

theorem args_uses {x : String} (hx : resolve x ≠ none) :
    ∀ (free : List String) (l : Nodes) (es : Entries), parseArgs argNames resolve free l = .ok es → UsesIn x l → In x (objectsIn es)
  | _, .nil, es, h, hu => by rw [UsesIn] at hu; exact hu.elim
  | free, .cons label node rest, es, h, hu => by
    rw [parseArgs] at h
    rw [UsesIn] at hu
    cases hd : parseWith argNames resolve node with
    | error e => rw [hd] at h; cases h
    | ok d =>
      rw [hd] at h
      simp only at h
      cases hk : label.key with
      | some k =>
        rw [hk] at h
        simp only at h
        cases hr : parseArgs argNames resolve free rest with
        | error e => rw [hr] at h; cases h
        | ok r =>
          rw [hr] at h; cases h
          rcases hu with hu | hu
          · exact in_left (parse_uses hx node d hd hu)
          · exact in_right (args_uses hx free rest r hr hu)
      | none =>
        rw [hk] at h
        simp only at h
        cases hr : parseArgs argNames resolve free.tail rest with
        | error e => rw [hr] at h; cases h
        | ok r =>
          rw [hr] at h; cases h
          rcases hu with hu | hu
          · exact in_left (parse_uses hx node d hd hu)
          · exact in_right (args_uses hx free.tail rest r hr hu)

theorem elements_uses {x : String} (hx : resolve x ≠ none) :
    ∀ (l : Nodes) (es : Entries), parseElements argNames resolve l = .ok es → UsesIn x l → In x (objectsIn es)
  | .nil, es, h, hu => by rw [UsesIn] at hu; exact hu.elim
  | .cons label node rest, es, h, hu => by
    rw [parseElements] at h
    rw [UsesIn] at hu
    cases hk : label.key with
    | none => rw [hk] at h; cases h
    | some k =>
      rw [hk] at h
      simp only at h
      cases hd : parseWith argNames resolve node with
      | error e => rw [hd] at h; cases h
      | ok d =>
        rw [hd] at h
        simp only at h
        cases hr : parseElements argNames resolve rest with
        | error e => rw [hr] at h; cases h
        | ok r =>
          rw [hr] at h; cases h
          rcases hu with hu | hu
          · exact in_left (parse_uses hx node d hd hu)
          · exact in_right (elements_uses hx rest r hr hu)

theorem items_uses {x : String} (hx : resolve x ≠ none) :
    ∀ (l : Nodes) (es : Entries), parseItems argNames resolve l = .ok es → UsesIn x l → In x (objectsIn es)
  | .nil, es, h, hu => by rw [UsesIn] at hu; exact hu.elim
  | .cons label node rest, es, h, hu => by
    rw [parseItems] at h
    rw [UsesIn] at hu
    cases hd : parseWith argNames resolve node with
    | error e => rw [hd] at h; cases h
    | ok d =>
      rw [hd] at h
      simp only at h
      cases hr : parseItems argNames resolve rest with
      | error e => rw [hr] at h; cases h
      | ok r =>
        rw [hr] at h; cases h
        rcases hu with hu | hu
        · exact in_left (parse_uses hx node d hd hu)
        · exact in_right (items_uses hx rest r hr hu)
end
end

/-- The value of a variable of the file, as it is read. -/
def Value (argNames : String → List String) (body : List Stmt) (x : String) (v : Data) : Prop :=
  ∃ m limit, lookup body x = some m ∧ parse argNames body limit m = .ok v

theorem parse_values (argNames : String → List String) (body : List Stmt) : ∀ (limit : Nat) (n : Node) (d : Data),
    parse argNames body limit n = .ok d → Good (Value argNames body) (objects d)
  | 0, n, d, h => by
    rw [parse] at h
    refine parse_good ?_ n d h
    intro id v hr
    cases hl : lookup body id <;> rw [hl] at hr <;> simp at hr
  | limit + 1, n, d, h => by
    rw [parse] at h
    refine parse_good ?_ n d h
    intro id v hr
    cases hl : lookup body id with
    | none => rw [hl] at hr; simp at hr
    | some m =>
      rw [hl] at hr
      simp only [Option.map_some, Option.some.injEq] at hr
      exact ⟨parse_values argNames body limit m v hr, m, limit, hl, hr⟩

/-- The tree of the inputs, from what was read. -/
theorem tree_objects {argNames limit body top t} (h : getTree argNames limit body top = .ok (some t)) :
    ∃ m d, lookup body top = some m ∧ parse argNames body limit m = .ok d ∧
      ∀ n, (n ∈ objects t ∧ assignOf n ≠ some top) → n ∈ objects d := by
  unfold getTree at h
  cases hl : lookup body top with
  | none => rw [hl] at h; simp at h
  | some m =>
    rw [hl] at h
    simp only at h
    refine ⟨m, ?_⟩
    cases hp : parse argNames body limit m with
    | error e => rw [hp] at h; cases h
    | ok d =>
      rw [hp] at h
      refine ⟨d, rfl, rfl, ?_⟩
      rintro n ⟨hn, hne⟩
      cases d with
      | code c => simp only [Except.ok.injEq, Option.some.injEq] at h; subst h; exact hn
      | list items => simp only [Except.ok.injEq, Option.some.injEq] at h; subst h; exact hn
      | call name args a =>
        simp only [Except.ok.injEq, Option.some.injEq] at h
        subst h
        rcases List.mem_cons.1 hn with rfl | hn
        · exact absurd rfl hne
        · exact List.mem_cons_of_mem _ hn
      | dict args a =>
        simp only [Except.ok.injEq, Option.some.injEq] at h
        subst h
        rcases List.mem_cons.1 hn with rfl | hn
        · exact absurd rfl hne
        · exact List.mem_cons_of_mem _ hn
      | val value a =>
        simp only [Except.ok.injEq, Option.some.injEq] at h
        subst h
        rcases List.mem_cons.1 hn with rfl | hn
        · exact absurd rfl hne
        · exact List.mem_cons_of_mem _ hn

theorem split_two (a f : List Char) (ha : '.' ∉ a) (hf : '.' ∉ f) : Checks.splitDot (a ++ '.' :: f) = [a, f] := by
  induction a with
  | nil =>
    have := (Lemmas.Checks.splitDot_one f f).2 ⟨rfl, hf⟩
    simp [Checks.splitDot, this]
  | cons c cs ih =>
    have hc : c ≠ '.' := fun e => ha (by simp [e])
    rw [List.cons_append, Checks.splitDot, ih fun h => ha (by simp [h])]
    simp [hc]

theorem definition_eq (t : Data) (x f : String) (hx : '.' ∉ x.toList) (hf : '.' ∉ f.toList) :
    definitionName t (x ++ "." ++ f) = (crawl x t).map fun n => nodeName n ++ "." ++ f := by
  unfold definitionName
  have : (x ++ "." ++ f).toList = x.toList ++ '.' :: f.toList := by simp
  rw [this, split_two _ _ hx hf]
  simp

end C209

/-- The search finds the first object which is assigned to the variable, in the order of the code, wherever it is. -/
theorem C209_search (x : String) (d : Data) :
    crawl x d = (objects d).find? (fun n => decide (assignOf n = some x)) ∧ ((crawl x d).isSome = true ↔ Occurs x d) := by
  refine ⟨C209.crawl_eq x d, ?_⟩
  rw [C209.crawl_eq x d, List.find?_isSome]
  simp [Occurs]

/-- What is found for a variable is what the file assigns to it: if this is a call of `g`, then an action `x.f` is of the kind `g.f`, if the variable
is in the tree of the inputs. -/
theorem C209_kind (limit : Nat) (body : List Stmt) (t : Data) (read : inputs limit body = .ok (some t)) (x f g : String) (args : Nodes)
    (hx : '.' ∉ x.toList) (hf : '.' ∉ f.toList) (hi : x ≠ "Inputs") (value : lookup body x = some (.call g args)) (occurs : Occurs x t) :
    definitionName t (x ++ "." ++ f) = some (g ++ "." ++ f) := by
  rw [C209.definition_eq t x f hx hf]
  have hs := (C209_search x t).2.2 occurs
  obtain ⟨n, hn⟩ := Option.isSome_iff_exists.1 hs
  rw [hn]
  rw [C209.crawl_eq] at hn
  have hmem := List.mem_of_find?_eq_some hn
  have has : assignOf n = some x := by simpa using List.find?_some hn
  obtain ⟨m, d, hl, hp, hobj⟩ := C209.tree_objects read
  have hnd := hobj n ⟨hmem, by rw [has]; simpa using hi⟩
  obtain ⟨v, ⟨m', l', hl', hp'⟩, rfl⟩ := C209.parse_values inputsArgNames body limit m d hp n hnd x has
  rw [value] at hl'
  cases hl'
  rw [parse_eq, parseWith] at hp'
  cases ha : parseArgs inputsArgNames (resolver inputsArgNames body l') (inputsArgNames g) args with
  | error e => rw [ha] at hp'; cases hp'
  | ok es => rw [ha] at hp'; cases hp'; rfl

/-- A variable which is used in the list of the inputs is always found, so its proxies are of the kind the file says. -/
theorem C209_used_partial (limit : Nat) (body : List Stmt) (t : Data) (read : inputs limit body = .ok (some t)) (items : Nodes)
    (list : lookup body "Inputs" = some (.list items)) (x f g : String) (args : Nodes)
    (hx : '.' ∉ x.toList) (hf : '.' ∉ f.toList) (hi : x ≠ "Inputs") (value : lookup body x = some (.call g args)) (used : UsesIn x items) :
    definitionName t (x ++ "." ++ f) = some (g ++ "." ++ f) := by
  refine C209_kind limit body t read x f g args hx hf hi value ?_
  unfold inputs getTree at read
  rw [list] at read
  simp only at read
  cases hp : parse inputsArgNames body limit (.list items) with
  | error e => rw [hp] at read; cases read
  | ok d =>
    rw [hp] at read
    rw [parse_eq] at hp
    have hr : resolver inputsArgNames body limit x ≠ none := by
      cases limit <;> simp [resolver, value]
    have hu := C209.parse_uses hr _ d hp (by rw [Uses]; exact used)
    have hd : t = d := by
      rw [parseWith] at hp
      cases ha : parseItems inputsArgNames (resolver inputsArgNames body limit) items with
      | error e => rw [ha] at hp; cases hp
      | ok es =>
        rw [ha] at hp; cases hp
        simp only [Except.ok.injEq, Option.some.injEq] at read
        exact read.symm
    rw [hd]
    exact hu

/-- Names without a dot, or with more than one, and names of variables which are not in the tree, are no proxies. -/
theorem C209_other (t : Data) (name : String) :
    (name.toList.count '.' ≠ 1 → definitionName t name = none) ∧
    (∀ x f, '.' ∉ x.toList → '.' ∉ f.toList → ¬ Occurs x t → definitionName t (x ++ "." ++ f) = none) := by
  constructor
  · intro h
    unfold definitionName
    have hlen : ∀ l : List Char, (Checks.splitDot l).length = l.count '.' + 1 := by
      intro l
      induction l with
      | nil => rfl
      | cons c cs ih =>
        rw [Checks.splitDot]
        cases hs : Checks.splitDot cs with
        | nil => exact absurd hs (Lemmas.Checks.splitDot_ne cs)
        | cons w ws =>
          rw [hs] at ih
          by_cases hc : c = '.'
          · simp [hc] at ih ⊢; omega
          · simp [hc] at ih ⊢; omega
    have := hlen name.toList
    split
    · rename_i e; rw [e] at this; simp at this; omega
    · rfl
  · intro x f hx hf ho
    rw [C209.definition_eq t x f hx hf]
    cases hc : crawl x t with
    | none => rfl
    | some n => exact absurd ((C209_search x t).2.1 (by rw [hc]; rfl)) ho

/-- A file: a pager, and inputs which use it and a proxy of it. -/
def C209.file : List Stmt :=
  [.assign ["_pager"] (.call "PagerAction" .nil),
   .assign ["Inputs"] (.list (.cons {} (.dict (.cons { key := some "\"actions\"" } (.list (.cons {} (.name "_pager") (.cons {} (.call "_pager.proxy" .nil) .nil))) .nil)) .nil))]

example : (match inputs 5 C209.file with | .ok (some t) => definitionName t "_pager.proxy" | _ => none) = some "PagerAction.proxy" := by decide +kernel

/-- A variable which is not used in the inputs itself is not found (for example if it is only used under another name): its proxies are not
recognized. -/
theorem C209_alias_witness :
    (match inputs 5 [.assign ["_pager"] (.call "PagerAction" .nil), .assign ["_p"] (.name "_pager"),
        .assign ["Inputs"] (.list (.cons {} (.name "_p") (.cons {} (.call "_pager.proxy" .nil) .nil)))] with
      | .ok (some t) => definitionName t "_pager.proxy" | _ => some "") = none := by decide +kernel

/-- A function of a variable which is no call gets an undefined kind. -/
theorem C209_undefined_witness :
    (match inputs 5 [.assign ["_list"] (.list .nil), .assign ["Inputs"] (.list (.cons {} (.name "_list") (.cons {} (.call "_list.copy" .nil) .nil)))] with
      | .ok (some t) => definitionName t "_list.copy" | _ => none) = some "undefined.copy" := by decide +kernel

end PySwitch.Props
