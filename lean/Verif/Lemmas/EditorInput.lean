import Verif.Spec.EditorInput
import Verif.Props.Editor

namespace PySwitch.Lemmas.EditorInput
open PySwitch.Editor PySwitch.Spec.Editor PySwitch.Lemmas.Editor PySwitch.Props

/-! ### Source code of parts of a loaded tree -/

theorem codeOf_assigned {x d n} (h : codeOf d = .ok n) : codeOf (assigned x d) = .ok (.name x) := by
  cases d with
  | code c => simp [assigned, codeOf, Data.truthy]
  | list items =>
    simp only [assigned, codeOf] at h ⊢
    split at h
    · split <;> simp
    · cases h
  | call name args a =>
    simp only [assigned, codeOf] at h ⊢
    split at h
    · simp_all
    · cases h
  | dict args a =>
    simp only [assigned, codeOf] at h ⊢
    split at h
    · simp_all
    · cases h
  | val value a =>
    cases a with
    | none => simp only [assigned, codeOf] at h ⊢; simp [h]
    | some y =>
      simp only [assigned, codeOf] at h ⊢
      split at h
      · rename_i ht
        split at h
        · simp [*]
        · cases h
      · rename_i ht; simp [ht]

mutual
theorem codeOf_parse {argNames} {body : List Stmt} (limit : Nat)
    (ih : ∀ x d, resolver argNames body limit x = some (.ok d) → codeOf (assigned x d) = .ok (.name x)) :
    ∀ (n : Node) (d : Data), Plain argNames n →
      parseWith argNames (resolver argNames body limit) n = .ok d → codeOf d = .ok n
  | .name x, d, _, hp => by
    simp only [parseWith] at hp
    cases hr : resolver argNames body limit x with
    | none => simp [hr] at hp; subst hp; simp [codeOf]
    | some r =>
      cases r with
      | error e => simp [hr] at hp
      | ok d' =>
        simp [hr] at hp; subst hp
        exact ih x d' hr
  | .other c, d, _, hp => by simp [parseWith] at hp; subst hp; simp [codeOf]
  | .call func args, d, hn, hp => by
    simp only [Plain] at hn
    simp only [parseWith] at hp
    split at hp
    · rename_i e he
      cases hp
      simp [codeOf, codeOf_parseArgs limit ih args _ e hn he]
    · cases hp
  | .dict elements, d, hn, hp => by
    simp only [Plain] at hn
    simp only [parseWith] at hp
    split at hp
    · rename_i e he
      cases hp
      simp [codeOf, codeOf_parseElements limit ih elements e hn he]
    · cases hp
  | .list items, d, hn, hp => by
    simp only [Plain] at hn
    simp only [parseWith] at hp
    split at hp
    · rename_i e he
      cases hp
      simp [codeOf, codeOf_parseItems limit ih items e hn he]
    · cases hp

theorem codeOf_parseArgs {argNames} {body : List Stmt} (limit : Nat)
    (ih : ∀ x d, resolver argNames body limit x = some (.ok d) → codeOf (assigned x d) = .ok (.name x)) :
    ∀ (n : Nodes) (names : List String) (d : Entries), PlainArgs argNames names.isEmpty n →
      parseArgs argNames (resolver argNames body limit) names n = .ok d → codeOfArgs d = .ok n
  | .nil, _, d, _, hp => by simp [parseArgs] at hp; subst hp; simp [codeOfArgs]
  | .cons label node rest, names, d, hn, hp => by
    simp only [PlainArgs] at hn
    obtain ⟨h1, h2, h3, h4, h5⟩ := hn
    obtain ⟨key, star⟩ := label
    simp at h1 h2; subst h1
    simp only [parseArgs] at hp
    split at hp
    · cases hp
    · rename_i d' hd'
      have a := codeOf_parse limit ih node d' h4 hd'
      cases key with
      | some k =>
        simp only [] at hp
        split at hp
        · rename_i r hr
          cases hp
          have b := codeOf_parseArgs limit ih rest names r h5 hr
          have : k ≠ "" := fun e => h2 (by rw [e])
          simp [codeOfArgs, a, b, this]
        · cases hp
      | none =>
        have : names = [] := by simpa using h3
        subst this
        simp only [] at hp
        split at hp
        · rename_i r hr
          cases hp
          have b := codeOf_parseArgs limit ih rest [] r h5 hr
          simp [codeOfArgs, a, b]
        · cases hp

theorem codeOf_parseElements {argNames} {body : List Stmt} (limit : Nat)
    (ih : ∀ x d, resolver argNames body limit x = some (.ok d) → codeOf (assigned x d) = .ok (.name x)) :
    ∀ (n : Nodes) (d : Entries), PlainElements argNames n →
      parseElements argNames (resolver argNames body limit) n = .ok d → codeOfElements d = .ok n
  | .nil, d, _, hp => by simp [parseElements] at hp; subst hp; simp [codeOfElements]
  | .cons label node rest, d, hn, hp => by
    simp only [PlainElements] at hn
    obtain ⟨⟨k, hk, rfl⟩, h4, h5⟩ := hn
    simp only [parseElements] at hp
    split at hp
    · cases hp
    · rename_i d' hd'
      have a := codeOf_parse limit ih node d' h4 hd'
      split at hp
      · rename_i r hr
        cases hp
        have b := codeOf_parseElements limit ih rest r h5 hr
        rw [stripQuotes_quote k hk]
        simp [codeOfElements, a, b]
      · cases hp

theorem codeOf_parseItems {argNames} {body : List Stmt} (limit : Nat)
    (ih : ∀ x d, resolver argNames body limit x = some (.ok d) → codeOf (assigned x d) = .ok (.name x)) :
    ∀ (n : Nodes) (d : Entries), PlainItems argNames n →
      parseItems argNames (resolver argNames body limit) n = .ok d → codeOfItems d = .ok n
  | .nil, d, _, hp => by simp [parseItems] at hp; subst hp; simp [codeOfItems]
  | .cons label node rest, d, hn, hp => by
    simp only [PlainItems] at hn
    obtain ⟨rfl, h4, h5⟩ := hn
    simp only [parseItems] at hp
    split at hp
    · cases hp
    · rename_i d' hd'
      have a := codeOf_parse limit ih node d' h4 hd'
      split at hp
      · rename_i r hr
        cases hp
        have b := codeOf_parseItems limit ih rest r h5 hr
        simp [codeOfItems, a, b]
      · cases hp
end

theorem codeOf_all {argNames top} {body : List Stmt} (hf : PlainFile argNames top body) :
    ∀ (limit : Nat) (n : Node) (d : Data), Plain argNames n →
      parse argNames body limit n = .ok d → codeOf d = .ok n
  | 0, n, d, hn, hp => by
    rw [parse_eq] at hp
    refine codeOf_parse 0 ?_ n d hn hp
    intro x d' hr
    cases hl : lookup body x <;> simp [resolver, hl] at hr
  | l + 1, n, d, hn, hp => by
    rw [parse_eq] at hp
    refine codeOf_parse (l + 1) ?_ n d hn hp
    intro x d' hr
    cases hl : lookup body x with
    | none => simp [resolver, hl] at hr
    | some n' =>
      simp [resolver, hl] at hr
      obtain ⟨ts, hm, _⟩ := lookup_mem hl
      exact codeOf_assigned (codeOf_all hf l n' d' (hf.plain ts n' hm) hr)

/-! ### Lists of nodes -/

theorem plainItems_elems {argNames} : ∀ l, PlainItems argNames (elems l) ↔ ∀ n ∈ l, Plain argNames n
  | [] => by simp [elems, PlainItems]
  | n :: l => by simp [elems, PlainItems, plainItems_elems l]

theorem parseItems_elems {argNames resolve} : ∀ (l : List Node) (es : Entries),
    parseItems argNames resolve (elems l) = .ok es →
    match l with
    | [] => es = .nil
    | n :: r => ∃ d es', es = .cons none d es' ∧ parseWith argNames resolve n = .ok d ∧
        parseItems argNames resolve (elems r) = .ok es'
  | [], es, h => by simpa [elems, parseItems, eq_comm] using h
  | n :: r, es, h => by
    simp only [elems, parseItems] at h
    split at h
    · cases h
    · rename_i d hd
      split at h
      · rename_i es' he; cases h; exact ⟨d, es', rfl, hd, he⟩
      · cases h

theorem parseElements_pairs {argNames resolve} : ∀ (l : List (String × Node)) (es : Entries),
    (∀ e ∈ l, PlainKey e.1) → parseElements argNames resolve (pairs l) = .ok es →
    match l with
    | [] => es = .nil
    | e :: r => ∃ d es', es = .cons (some e.1) d es' ∧ parseWith argNames resolve e.2 = .ok d ∧
        parseElements argNames resolve (pairs r) = .ok es'
  | [], es, _, h => by simpa [pairs, parseElements, eq_comm] using h
  | (k, n) :: r, es, hk, h => by
    simp only [pairs, parseElements] at h
    split at h
    · cases h
    · rename_i d hd
      split at h
      · rename_i es' he
        cases h
        exact ⟨d, es', by rw [stripQuotes_quote k (hk (k, n) (by simp))], hd, he⟩
      · cases h

theorem quote_inj {k k' : String} (h : "\"" ++ k ++ "\"" = "\"" ++ k' ++ "\"") : k = k' := by
  have := congrArg String.toList h
  simpa [String.ext_iff] using this

theorem plainElements_pairs {argNames} : ∀ l, PlainElements argNames (pairs l) ↔
    ∀ e ∈ l, PlainKey e.1 ∧ Plain argNames e.2
  | [] => by simp [pairs, PlainElements]
  | (k, n) :: l => by
    simp only [pairs, PlainElements, plainElements_pairs l, List.mem_cons, forall_eq_or_imp]
    constructor
    · rintro ⟨⟨k', hk', he⟩, h2, h3⟩
      simp at he
      have : k = k' := quote_inj (by simpa [String.ext_iff] using he)
      exact ⟨⟨this ▸ hk', h2⟩, h3⟩
    · rintro ⟨⟨h1, h2⟩, h3⟩
      exact ⟨⟨k, h1, rfl⟩, h2, h3⟩

/-! ### Pages -/

theorem page_back {resolve} (p : Node × Option Node × Option Node) (d : Data)
    (h : parseWith inputsArgNames resolve (pageSrc p) = .ok d) :
    ∃ pd, decodePage d = .ok pd ∧ encodePage pd = .ok d := by
  obtain ⟨i, c, t⟩ := p
  simp only [pageSrc, parseWith] at h
  split at h
  · rename_i es he
    cases h
    have key : ∀ s : String, s = "id" ∨ s = "color" ∨ s = "text" → PlainKey s := by
      rintro s (rfl | rfl | rfl) <;> simp [PlainKey]
    cases c with
    | none =>
      cases t with
      | none =>
        obtain ⟨d1, e1, rfl, h1, he⟩ := parseElements_pairs _ _ (by simp [key]) he
        obtain rfl := parseElements_pairs _ _ (by simp) he
        exact ⟨_, rfl, by simp [findEntry, encodePage]⟩
      | some t =>
        obtain ⟨d1, e1, rfl, h1, he⟩ := parseElements_pairs _ _ (by simp [key]) he
        obtain ⟨d2, e2, rfl, h2, he⟩ := parseElements_pairs _ _ (by simp [key]) he
        obtain rfl := parseElements_pairs _ _ (by simp) he
        exact ⟨_, rfl, by simp [findEntry, encodePage]⟩
    | some c =>
      cases t with
      | none =>
        obtain ⟨d1, e1, rfl, h1, he⟩ := parseElements_pairs _ _ (by simp [key]) he
        obtain ⟨d2, e2, rfl, h2, he⟩ := parseElements_pairs _ _ (by simp [key]) he
        obtain rfl := parseElements_pairs _ _ (by simp) he
        exact ⟨_, rfl, by simp [findEntry, encodePage]⟩
      | some t =>
        obtain ⟨d1, e1, rfl, h1, he⟩ := parseElements_pairs _ _ (by simp [key]) he
        obtain ⟨d2, e2, rfl, h2, he⟩ := parseElements_pairs _ _ (by simp [key]) he
        obtain ⟨d3, e3, rfl, h3, he⟩ := parseElements_pairs _ _ (by simp [key]) he
        obtain rfl := parseElements_pairs _ _ (by simp) he
        exact ⟨_, rfl, by simp [findEntry, encodePage]⟩
  · cases h

theorem pages_back {resolve} : ∀ (ps : List (Node × Option Node × Option Node)) (es : Entries),
    parseItems inputsArgNames resolve (elems (ps.map pageSrc)) = .ok es →
    ∃ pds, decodePages es = .ok pds ∧ encodePages pds = .ok es
  | [], es, h => by
    obtain rfl := parseItems_elems _ _ h
    exact ⟨[], rfl, rfl⟩
  | p :: ps, es, h => by
    obtain ⟨d, es', rfl, h1, h2⟩ := parseItems_elems _ _ h
    obtain ⟨pd, a, b⟩ := page_back p d h1
    obtain ⟨pds, a', b'⟩ := pages_back ps es' h2
    exact ⟨pd :: pds, by simp [decodePages, a, a'], by simp [encodePages, b, b']⟩

/-! ### Actions -/

theorem plainArgs_kwargs {argNames u} : ∀ l, PlainArgs argNames u (kwargs l) ↔
    ∀ e ∈ l, e.1 ≠ some "" ∧ (u = true ∨ e.1 ≠ none) ∧ Plain argNames e.2
  | [] => by simp [kwargs, PlainArgs]
  | (k, n) :: l => by
    simp only [kwargs, PlainArgs, plainArgs_kwargs l, List.mem_cons, forall_eq_or_imp]
    simp only [true_and, and_assoc]

theorem parseArgs_kwargs {argNames resolve} : ∀ (l : List (Option String × Node)) (es : Entries),
    parseArgs argNames resolve [] (kwargs l) = .ok es →
    match l with
    | [] => es = .nil
    | e :: r => ∃ d es', es = .cons e.1 d es' ∧ parseWith argNames resolve e.2 = .ok d ∧
        parseArgs argNames resolve [] (kwargs r) = .ok es'
  | [], es, h => by simpa [kwargs, parseArgs, eq_comm] using h
  | (k, n) :: r, es, h => by
    simp only [kwargs, parseArgs] at h
    split at h
    · cases h
    · rename_i d hd
      cases k with
      | none =>
        simp only [List.tail_nil, List.head?_nil] at h
        split at h
        · rename_i es' he; cases h; exact ⟨d, es', rfl, hd, he⟩
        · cases h
      | some k =>
        simp only [] at h
        split at h
        · rename_i es' he; cases h; exact ⟨d, es', rfl, hd, he⟩
        · cases h

/-- No variable is an empty list. -/
def NoEmpty (body : List Stmt) : Prop := ∀ x n, lookup body x = some n → n ≠ .list .nil

theorem args_back {body : List Stmt} (hf : PlainFile inputsArgNames "Inputs" body) (hne : NoEmpty body) (limit : Nat)
    (f : String) : ∀ (args : List (Option String × Node)) (es : Entries),
    (∀ e ∈ args, e.1 ≠ some "" ∧ Plain inputsArgNames e.2) → PagesOk f args →
    parseArgs inputsArgNames (resolver inputsArgNames body limit) [] (kwargs args) = .ok es →
    ∃ vs es', readArgs f es = .ok vs ∧ writeArgs f vs = .ok es' ∧
      generateArgs "Inputs" es' body = .ok (kwargs args, body)
  | [], es, _, _, h => by
    obtain rfl := parseArgs_kwargs _ _ h
    exact ⟨[], .nil, rfl, rfl, rfl⟩
  | (k, v) :: r, es, hpl, hpg, h => by
    obtain ⟨d, es', rfl, h1, h2⟩ := parseArgs_kwargs _ _ h
    obtain ⟨vs, ws, a, b, c⟩ := args_back hf hne limit f r es' (fun e he => hpl e (List.mem_cons_of_mem _ he))
      (fun hp w hw => hpg hp w (List.mem_cons_of_mem _ hw)) h2
    obtain ⟨hk, hv⟩ := hpl (k, v) (by simp)
    simp only at hk hv h1
    have hkey : (k.bind fun n => if n = "" then none else some n) = k := by
      cases k with
      | none => rfl
      | some k => have : k ≠ "" := fun e => hk (by rw [e]); simp [this]
    have hp : parse inputsArgNames body limit v = .ok d := by rw [parse_eq]; exact h1
    by_cases hpage : f = "PagerAction" ∧ k = some "pages"
    · obtain ⟨ps, rfl⟩ := hpg hpage.1 v (by rw [← hpage.2]; simp)
      have hg := C104.generate_all hf hne limit _ d hv hp
      simp only [parseWith] at h1
      split at h1
      · rename_i items hi
        cases h1
        obtain ⟨pds, p1, p2⟩ := pages_back ps items hi
        refine ⟨(k, .pages pds) :: vs, .cons k (.list items) ws, ?_, ?_, ?_⟩
        · simp only [readArgs, readArg, if_pos hpage, p1, a, hkey]
        · simp only [writeArgs, writeArg, if_pos hpage, p2, b]
        · simp [generateArgs, hg, c, hkey, kwargs]
      · cases h1
    · refine ⟨(k, .code v) :: vs, .cons k (.code v) ws, ?_, ?_, ?_⟩
      · simp only [readArgs, readArg, if_neg hpage, codeOf_all hf limit v d hv hp, a, hkey]
      · simp only [writeArgs, writeArg, if_neg hpage, b]
      · simp [generateArgs, generate, c, hkey, kwargs]

/-- What is shown for an action is saved as the same source code. -/
theorem action_back {body : List Stmt} (hf : PlainFile inputsArgNames "Inputs" body) (hne : NoEmpty body) (limit : Nat)
    (n : Node) (hn : Plain inputsArgNames n) (ha : IsAction body n) (d : Data)
    (hp : parse inputsArgNames body limit n = .ok d) :
    ∃ a d', readAction d = .ok a ∧ writeAction a = .ok d' ∧ generate "Inputs" d' body = .ok (n, body) := by
  obtain ⟨f, args, hpg, hcase⟩ := ha
  rcases hcase with rfl | ⟨x, ts, hx, rfl, hm, hxt⟩
  · rw [parse_eq] at hp
    simp only [parseWith] at hp
    split at hp
    · rename_i es he
      cases hp
      have hpl : ∀ e ∈ args, e.1 ≠ some "" ∧ Plain inputsArgNames e.2 := by
        simp only [Plain, plainArgs_kwargs] at hn
        exact fun e he => ⟨(hn e he).1, (hn e he).2.2⟩
      obtain ⟨vs, ws, a, b, c⟩ := args_back hf hne limit f args es hpl hpg he
      exact ⟨⟨some f, none, vs⟩, .call f ws none, by simp [readAction, a], by simp [writeAction, b],
        by simp [generate, c, resolveAssign]⟩
    · cases hp
  · have hl : lookup body x = some (.call f (kwargs args)) := by
      cases hl : lookup body x with
      | none => exact absurd ⟨_, hm, hxt⟩ ((lookup_none ..).1 hl)
      | some m =>
        obtain ⟨ts', hm', hx'⟩ := lookup_mem hl
        rw [hf.once x ts' m ts _ hm' hm hx' hxt]
    have hpl : ∀ e ∈ args, e.1 ≠ some "" ∧ Plain inputsArgNames e.2 := by
      have := hf.plain ts _ hm
      simp only [Plain, plainArgs_kwargs] at this
      exact fun e he => ⟨(this e he).1, (this e he).2.2⟩
    cases limit with
    | zero => rw [parse_eq] at hp; simp [parseWith, resolver, hl] at hp
    | succ l =>
      rw [parse_eq] at hp
      simp only [parseWith, resolver, hl, Option.map_some] at hp
      cases hq : parse inputsArgNames body l (.call f (kwargs args)) with
      | error e => simp [hq] at hp
      | ok d' =>
        simp [hq] at hp
        rw [parse_eq] at hq
        simp only [parseWith] at hq
        split at hq
        · rename_i es he
          cases hq
          obtain ⟨vs, ws, a, b, c⟩ := args_back hf hne l f args es hpl hpg he
          rw [← hp]
          exact ⟨⟨some f, some x, vs⟩, .call f ws (some x), by simp [assigned, readAction, a], by simp [writeAction, b, hx],
            by simp [generate, c, resolveAssign, C104.set_self hf hl]⟩
        · cases hq

theorem new_back {body : List Stmt} {n : Node} {a : ActionDef} (h : NewAs n a) :
    ∃ d', writeAction a = .ok d' ∧ generate "Inputs" d' body = .ok (n, body) := by
  obtain ⟨f, args, h1, h2, rfl, rfl⟩ := h
  have : ∃ ws, writeArgs f (args.map fun e => (e.1, ArgVal.code e.2)) = .ok ws ∧
      generateArgs "Inputs" ws body = .ok (kwargs args, body) := by
    induction args with
    | nil => exact ⟨.nil, rfl, rfl⟩
    | cons e r ih =>
      obtain ⟨k, v⟩ := e
      obtain ⟨ws, a, b⟩ := ih (fun hf e he => h1 hf e (List.mem_cons_of_mem _ he)) (fun e he => h2 e (List.mem_cons_of_mem _ he))
      have hpage : ¬(f = "PagerAction" ∧ k = some "pages") := fun h => h1 h.1 (k, v) (by simp) h.2
      have hkey : (k.bind fun n => if n = "" then none else some n) = k := by
        cases k with
        | none => rfl
        | some k => have : k ≠ "" := fun e => h2 (some k, v) (by simp) (by simp [e]); simp [this]
      refine ⟨.cons k (.code v) ws, ?_, ?_⟩
      · simp only [List.map_cons, writeArgs, writeArg, if_neg hpage, a]
      · simp [generateArgs, generate, b, hkey, kwargs]
  obtain ⟨ws, a, b⟩ := this
  exact ⟨.call f ws none, by simp [writeAction, a], by simp [generate, b, resolveAssign]⟩

theorem actions_write {body : List Stmt} : ∀ (as : List ActionDef) (ns : List Node),
    as.length = ns.length → (∀ (i : Nat) a n, as[i]? = some a → ns[i]? = some n →
      ∃ d', writeAction a = .ok d' ∧ generate "Inputs" d' body = .ok (n, body)) →
    ∃ es, writeActions as = .ok es ∧ generateItems "Inputs" es body = .ok (elems ns, body)
  | [], [], _, _ => ⟨.nil, rfl, rfl⟩
  | a :: as, n :: ns, hl, h => by
    obtain ⟨d, p, q⟩ := h 0 a n rfl rfl
    obtain ⟨es, p', q'⟩ := actions_write as ns (by simpa using hl) (fun i a n ha hn => h (i + 1) a n (by simpa using ha) (by simpa using hn))
    exact ⟨.cons none d es, by simp [writeActions, p, p'], by simp [generateItems, q, q', elems]⟩

/-! ### Inputs -/

theorem parse_isName {body : List Stmt} {limit x v d} (hx : ¬Sets body x)
    (hp : parse inputsArgNames body limit v = .ok d) : d = .code (.name x) ↔ v = .name x := by
  have hl := (lookup_none ..).2 hx
  rw [parse_eq] at hp
  constructor
  · rintro rfl
    cases v with
    | name y =>
      simp only [parseWith] at hp
      cases hr : resolver inputsArgNames body limit y with
      | none => simp [hr] at hp; rw [hp]
      | some r =>
        cases r with
        | error e => simp [hr] at hp
        | ok d => simp [hr] at hp; cases d <;> simp [assigned] at hp
    | other c => simp [parseWith] at hp
    | call f a => simp only [parseWith] at hp; split at hp <;> cases hp
    | dict e => simp only [parseWith] at hp; split at hp <;> cases hp
    | list i => simp only [parseWith] at hp; split at hp <;> cases hp
  · rintro rfl
    have : resolver inputsArgNames body limit x = none := by cases limit <;> simp [resolver, hl]
    simp [parseWith, this] at hp
    exact hp.symm

theorem findEntry_pairs {body : List Stmt} {limit} (key : String) : ∀ (e : InputSrc) (es : Entries),
    (∀ p ∈ e, PlainKey p.1) →
    parseElements inputsArgNames (resolver inputsArgNames body limit) (pairs e) = .ok es →
    match valueOf key e with
    | none => findEntry key es = none
    | some v => ∃ d, findEntry key es = some d ∧ parse inputsArgNames body limit v = .ok d
  | [], es, _, h => by
    obtain rfl := parseElements_pairs _ _ (by simp) h
    simp [valueOf, findEntry]
  | (k, v) :: r, es, hk, h => by
    obtain ⟨d, es', rfl, h1, h2⟩ := parseElements_pairs _ _ hk h
    simp only [valueOf, findEntry]
    by_cases hkk : k = key
    · simp only [hkk, if_true]
      exact ⟨d, rfl, by rw [parse_eq]; exact h1⟩
    · simp only [if_neg hkk, Option.some.injEq]
      exact findEntry_pairs key r es' (fun p hp => hk p (List.mem_cons_of_mem _ hp)) h2

theorem isInput_pairs {body : List Stmt} {limit assignment} (hx : ¬Sets body assignment) (e : InputSrc) (es : Entries)
    (hk : ∀ p ∈ e, PlainKey p.1)
    (h : parseElements inputsArgNames (resolver inputsArgNames body limit) (pairs e) = .ok es) :
    isInput assignment (.dict es none) = true ↔ IsFor assignment e := by
  have := findEntry_pairs "assignment" e es hk h
  simp only [isInput, entriesOf, IsFor]
  cases hv : valueOf "assignment" e with
  | none => simp [hv] at this; simp [this]
  | some v =>
    simp only [hv] at this
    obtain ⟨d, h1, h2⟩ := this
    rw [h1]
    simp [parse_isName hx h2]

theorem generateElements_parse {body : List Stmt} (hf : PlainFile inputsArgNames "Inputs" body) (hne : NoEmpty body)
    {limit} : ∀ (e : InputSrc) (es : Entries), (∀ p ∈ e, PlainKey p.1 ∧ Plain inputsArgNames p.2) →
    parseElements inputsArgNames (resolver inputsArgNames body limit) (pairs e) = .ok es →
    generateElements "Inputs" es body = .ok (pairs e, body)
  | [], es, _, h => by
    obtain rfl := parseElements_pairs _ _ (by simp) h
    rfl
  | (k, v) :: r, es, hk, h => by
    obtain ⟨d, es', rfl, h1, h2⟩ := parseElements_pairs _ _ (fun p hp => (hk p hp).1) h
    have a := C104.generate_all hf hne limit v d (hk (k, v) (by simp)).2 (by rw [parse_eq]; exact h1)
    have b := generateElements_parse hf hne r es' (fun p hp => hk p (List.mem_cons_of_mem _ hp)) h2
    simp [generateElements, a, b, pairs]

theorem generate_put {body : List Stmt} (hf : PlainFile inputsArgNames "Inputs" body) (hne : NoEmpty body)
    {limit} (key : String) (new : Data) (n : Node) (hnew : generate "Inputs" new body = .ok (n, body)) :
    ∀ (e : InputSrc) (es : Entries), (∀ p ∈ e, PlainKey p.1 ∧ Plain inputsArgNames p.2) →
    parseElements inputsArgNames (resolver inputsArgNames body limit) (pairs e) = .ok es →
    generateElements "Inputs" (putEntry key new es) body = .ok (pairs (withValue key n e), body)
  | [], es, _, h => by
    obtain rfl := parseElements_pairs _ _ (by simp) h
    simp [putEntry, generateElements, hnew, withValue, pairs]
  | (k, v) :: r, es, hk, h => by
    obtain ⟨d, es', rfl, h1, h2⟩ := parseElements_pairs _ _ (fun p hp => (hk p hp).1) h
    have hr := fun p hp => hk p (List.mem_cons_of_mem _ hp)
    simp only [putEntry, withValue, Option.some.injEq]
    by_cases hkk : k = key
    · simp only [if_pos hkk]
      simp [generateElements, hnew, generateElements_parse hf hne r es' hr h2, pairs]
    · simp only [if_neg hkk]
      have a := C104.generate_all hf hne limit v d (hk (k, v) (by simp)).2 (by rw [parse_eq]; exact h1)
      have b := generate_put hf hne key new n hnew r es' hr h2
      simp [generateElements, a, b, pairs]

theorem generateInputs_parse {body : List Stmt} (hf : PlainFile inputsArgNames "Inputs" body) (hne : NoEmpty body)
    {limit} : ∀ (ins : List InputSrc) (es : Entries), (∀ e ∈ ins, ∀ p ∈ e, PlainKey p.1 ∧ Plain inputsArgNames p.2) →
    parseItems inputsArgNames (resolver inputsArgNames body limit) (elems (ins.map fun e => .dict (pairs e))) = .ok es →
    generateItems "Inputs" es body = .ok (elems (ins.map fun e => .dict (pairs e)), body)
  | [], es, _, h => by
    obtain rfl := parseItems_elems _ _ h
    rfl
  | e :: r, es, hk, h => by
    obtain ⟨d, es', rfl, h1, h2⟩ := parseItems_elems _ _ h
    simp only [parseWith] at h1
    split at h1
    · rename_i xs hxs
      cases h1
      have a := generateElements_parse hf hne e xs (hk e (by simp)) hxs
      have b := generateInputs_parse hf hne r es' (fun e he => hk e (List.mem_cons_of_mem _ he)) h2
      simp only [List.map_cons, elems, generateItems, generate, a, resolveAssign, b]
    · cases h1

theorem inputs_edit {body : List Stmt} (hf : PlainFile inputsArgNames "Inputs" body) (hne : NoEmpty body)
    {limit} (assignment key : String) (hx : ¬Sets body assignment) (new : Data) (n : Node)
    (hnew : generate "Inputs" new body = .ok (n, body)) :
    ∀ (ins : List InputSrc) (es : Entries), (∀ e ∈ ins, ∀ p ∈ e, PlainKey p.1 ∧ Plain inputsArgNames p.2) →
    parseItems inputsArgNames (resolver inputsArgNames body limit) (elems (ins.map fun e => .dict (pairs e))) = .ok es →
    (∃ e ∈ ins, IsFor assignment e) →
    (∃ args, findInput assignment es = some args) ∧
    generateItems "Inputs" (changeInput assignment (putEntry key new) es) body =
      .ok (elems ((edited assignment key n ins).map fun e => .dict (pairs e)), body)
  | [], es, _, _, hex => by simp at hex
  | e :: r, es, hk, h, hex => by
    obtain ⟨d, es', rfl, h1, h2⟩ := parseItems_elems _ _ h
    simp only [parseWith] at h1
    split at h1
    · rename_i xs hxs
      cases h1
      have hr := fun e he => hk e (List.mem_cons_of_mem _ he)
      have hi := isInput_pairs hx e xs (fun p hp => (hk e (by simp) p hp).1) hxs
      by_cases he : IsFor assignment e
      · simp only [findInput, changeInput, changeArgs, edited, if_pos (hi.2 he), if_pos he]
        refine ⟨⟨xs, rfl⟩, ?_⟩
        have a := generate_put hf hne key new n hnew e xs (hk e (by simp)) hxs
        have b := generateInputs_parse hf hne r es' hr h2
        simp only [List.map_cons, elems, generateItems, generate, a, resolveAssign, b]
      · have hni : ¬isInput assignment (.dict xs none) = true := fun h => he (hi.1 h)
        have hex' : ∃ e ∈ r, IsFor assignment e := by
          obtain ⟨e', he', hf'⟩ := hex
          rcases List.mem_cons.1 he' with rfl | h
          · exact absurd hf' he
          · exact ⟨e', h, hf'⟩
        simp only [findInput, changeInput, edited, if_neg hni, if_neg he]
        obtain ⟨i1, i2⟩ := inputs_edit hf hne assignment key hx new n hnew r es' hr h2 hex'
        refine ⟨i1, ?_⟩
        have a := generateElements_parse hf hne e xs (hk e (by simp)) hxs
        simp only [List.map_cons, elems, generateItems, generate, a, resolveAssign, i2]
    · cases h1

end PySwitch.Lemmas.EditorInput
