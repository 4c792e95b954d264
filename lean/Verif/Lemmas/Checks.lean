import Verif.Model.Checks
import Verif.Spec.Checks

namespace PySwitch.Lemmas.Checks
open PySwitch.Editor PySwitch.Editor.Checks PySwitch.Spec.Editor

/-! ### Strings -/

theorem includes_iff (p : List Char) : ∀ s : List Char, includes p s = true ↔ p <:+: s
  | [] => by simp [includes]
  | c :: s => by
    rw [includes, Bool.or_eq_true, includes_iff p s, List.infix_cons_iff, List.isPrefixOf_iff_prefix]

theorem splitDot_ne (s : List Char) : splitDot s ≠ [] := by
  cases s with
  | nil => simp [splitDot]
  | cons c s =>
    simp only [splitDot]
    split
    · simp
    · split <;> simp

theorem splitDot_one (p : List Char) : ∀ s, splitDot s = [p] ↔ s = p ∧ '.' ∉ s
  | [] => by simp [splitDot]
  | c :: s => by
    simp only [splitDot]
    cases h : splitDot s with
    | nil => exact absurd h (splitDot_ne s)
    | cons w ws =>
      by_cases hc : c = '.'
      · simp [hc]
      · have ih := splitDot_one w s
        simp only [if_neg hc]
        constructor
        · intro he
          simp at he
          obtain ⟨rfl, rfl⟩ := he
          obtain ⟨rfl, hd⟩ := ih.1 h
          exact ⟨rfl, by simp [Ne.symm hc, hd]⟩
        · rintro ⟨rfl, hd⟩
          simp at hd
          have := (splitDot_one s s).2 ⟨rfl, hd.2⟩
          rw [h] at this
          simp at this
          simp [this]

theorem splitDot_two (p m : List Char) : ∀ s, splitDot s = [p, m] ↔ s = p ++ '.' :: m ∧ '.' ∉ p ∧ '.' ∉ m
  | [] => by simp [splitDot]
  | c :: s => by
    simp only [splitDot]
    cases h : splitDot s with
    | nil => exact absurd h (splitDot_ne s)
    | cons w ws =>
      by_cases hc : c = '.'
      · subst hc
        simp only [if_true]
        constructor
        · intro he
          simp at he
          obtain ⟨rfl, rfl, rfl⟩ := he
          obtain ⟨rfl, hd⟩ := (splitDot_one w s).1 h
          exact ⟨rfl, by simp, hd⟩
        · rintro ⟨he, hp, hm⟩
          cases p with
          | nil =>
            simp at he
            subst he
            have := (splitDot_one s s).2 ⟨rfl, hm⟩
            rw [h] at this
            simp at this
            simp [this]
          | cons x p => simp at he; simp [← he.1] at hp
      · simp only [if_neg hc]
        constructor
        · intro he
          simp at he
          obtain ⟨rfl, rfl⟩ := he
          obtain ⟨rfl, h1, h2⟩ := (splitDot_two w m s).1 h
          exact ⟨rfl, by simp [Ne.symm hc, h1], h2⟩
        · rintro ⟨he, hp, hm⟩
          cases p with
          | nil => simp at he; exact absurd he.1 hc
          | cons x p =>
            simp at he hp
            have := (splitDot_two p m s).2 ⟨he.2, hp.2, hm⟩
            rw [h] at this
            simp at this
            simp [this, he.1]

/-! ### Pages -/

variable {text : Node → String}

theorem argument_iff (a : ActionDef) (name c : String) : argument text a name = some c ↔ HasArg text a name c := by
  obtain ⟨n0, as0, args⟩ := a
  simp only [argument, HasArg]
  induction args with
  | nil => simp
  | cons e args ih =>
    obtain ⟨k, v⟩ := e
    by_cases hk : k = some name
    · subst hk
      simp only [List.find?_cons, beq_self_eq_true]
      constructor
      · intro h
        cases v with
        | pages l => simp at h
        | code n => exact ⟨[], args, n, rfl, by simp, by simpa using h⟩
      · rintro ⟨pre, post, n, h1, h2, h3⟩
        cases pre with
        | nil => simp at h1; simp [h1.1, h3]
        | cons q pre => simp at h1; exact absurd (by rw [← h1.1]) (h2 q (by simp))
    · rw [List.find?_cons, beq_eq_false_iff_ne.2 hk]
      simp only [ih]
      constructor
      · rintro ⟨pre, post, n, h1, h2, h3⟩
        exact ⟨(k, v) :: pre, post, n, by simp [h1], by simpa [hk] using h2, h3⟩
      · rintro ⟨pre, post, n, h1, h2, h3⟩
        cases pre with
        | nil => simp at h1; exact absurd h1.1.1 hk
        | cons q pre => simp at h1; exact ⟨pre, post, n, h1.2, fun e he => h2 e (List.mem_cons_of_mem _ he), h3⟩

theorem ofList_two {ec : String} {p m : List Char} (h : splitDot ec.toList = [p, m]) :
    ec = String.ofList p ++ "." ++ String.ofList m ∧ '.' ∉ p ∧ '.' ∉ m := by
  obtain ⟨h1, h2, h3⟩ := (splitDot_two p m _).1 h
  refine ⟨?_, h2, h3⟩
  apply String.toList_injective
  simp [h1]

theorem onPage_iff (a : ActionDef) (p q : String) :
    OnPage text a p q ↔ pager text a = some p ∧ p ≠ "" ∧ page text a = some q := by
  constructor
  · rintro ⟨h1, h2, h3, h4, h5, m, h6, h7⟩
    have e1 := (argument_iff a _ _).2 h5
    have e2 := (argument_iff a _ _).2 h7
    have hs : splitDot (p ++ "." ++ m).toList = [p.toList, m.toList] :=
      (splitDot_two _ _ _).2 ⟨by simp, h1, h6⟩
    have hne : ¬(p ++ "." ++ m = "" ∨ p ++ "." ++ m = "None") := by
      rintro (h | h)
      · have := congrArg (fun s => '.' ∈ s.toList) h
        simp at this
      · have := congrArg (fun s => '.' ∈ s.toList) h
        simp at this
    have hp : pager text a = some p := by
      simp only [pager, e2, if_neg hne, e1, h3, h4, or_self, if_false, hs]
      simp
    exact ⟨hp, h2, by simp [page, hp, h2, e1]⟩
  · rintro ⟨h1, h2, h3⟩
    simp only [page, h1, if_neg h2] at h3
    have e1 := (argument_iff a _ _).1 h3
    simp only [pager] at h1
    split at h1
    · cases h1
    · rename_i ec hec
      split at h1
      · cases h1
      · simp only [h3] at h1
        split at h1
        · cases h1
        · rename_i hq
          split at h1
          · rename_i pp mm hs
            cases h1
            obtain ⟨g1, g2, g3⟩ := ofList_two hs
            simp only [not_or] at hq
            refine ⟨by simpa using g2, h2, hq.1, hq.2, e1, String.ofList mm, by simpa using g3, ?_⟩
            rw [← g1]
            exact (argument_iff a _ _).1 hec
          · cases h1

/-- A pager comes with a page. -/
theorem page_some (a : ActionDef) {p} (h : pager text a = some p) (hp : p ≠ "") : ∃ q, page text a = some q := by
  simp only [page, h, if_neg hp]
  simp only [pager] at h
  split at h
  · cases h
  · split at h
    · cases h
    · split at h
      · cases h
      · rename_i q hq; exact ⟨q, hq⟩

theorem page_none (a : ActionDef) (h : ∀ p, pager text a = some p → p = "") : page text a = none := by
  simp only [page]
  cases hp : pager text a with
  | none => rfl
  | some p => simp [h p hp]

/-- The condition of the program is the one of the specification. -/
theorem compatible_iff (a b : ActionDef) : (pager text b ≠ pager text a ∨ page text b = page text a) ↔
    ∃ current, EnabledWith text current a ∧ EnabledWith text current b := by
  constructor
  · intro h
    refine ⟨fun x => if pager text a = some x then (page text a).getD "" else (page text b).getD "", ?_, ?_⟩
    · intro p q hpq
      obtain ⟨h1, h2, h3⟩ := (onPage_iff ..).1 hpq
      simp [h1, h3]
    · intro p q hpq
      obtain ⟨h1, h2, h3⟩ := (onPage_iff ..).1 hpq
      simp only
      split
      · rename_i hp
        rcases h with h | h
        · exact absurd (h1.trans hp.symm) h
        · rw [← h, h3]; rfl
      · simp [h3]
  · rintro ⟨cur, h1, h2⟩
    by_cases hp : pager text b = pager text a
    · right
      cases ha : pager text a with
      | none => rw [page_none a (by simp [ha]), page_none b (by simp [hp, ha])]
      | some p =>
        by_cases he : p = ""
        · rw [page_none a (by simp [ha, he]), page_none b (by simp [hp, ha, he])]
        · obtain ⟨q, hq⟩ := page_some a ha he
          obtain ⟨q', hq'⟩ := page_some b (hp.trans ha) he
          have e1 := h1 p q ((onPage_iff ..).2 ⟨ha, he, hq⟩)
          have e2 := h2 p q' ((onPage_iff ..).2 ⟨hp.trans ha, he, hq'⟩)
          rw [hq, hq', ← e1, ← e2]
    · exact .inl hp

/-! ### Usages -/

/-- `ShowsOn` as a program. -/
def showsB (text : Node → String) (display : String) : Option String × ArgVal → Bool
  | (some name, .code n) => text n == display && !includes "preview".toList name.toList && !includes "change".toList name.toList
  | _ => false

theorem showsB_iff (display : String) (e : Option String × ArgVal) : showsB text display e = true ↔ ShowsOn text display e := by
  obtain ⟨k, v⟩ := e
  cases k <;> cases v <;> simp [showsB, ShowsOn]
  rename_i k n
  rw [← Bool.not_eq_true, ← Bool.not_eq_true, includes_iff, includes_iff]
  simp [and_assoc]

/-- The argument has no name, but the value of the display. -/
def positional (text : Node → String) (display : String) : Option String × ArgVal → Bool
  | (none, .code n) => text n == display
  | _ => false

/-- Positions of the arguments (from `k`) which use the display. -/
def argUses (text : Node → String) (display : String) : Nat → List (Option String × ArgVal) → List Nat
  | _, [] => []
  | k, e :: r => if showsB text display e then k :: argUses text display (k + 1) r else argUses text display (k + 1) r

theorem usagesInArgs_eq (display : String) (a : Nat × ActionDef) : ∀ (args : List (Option String × ArgVal)) (k : Nat),
    usagesInArgs text display false a args =
      if args.any (positional text display) then .error .type else .ok ((argUses text display k args).map fun _ => a)
  | [], k => rfl
  | (name, v) :: r, k => by
    have ih := usagesInArgs_eq display a r (k + 1)
    cases v with
    | pages l => cases name <;> simp [usagesInArgs, ih, positional, argUses, showsB] <;> rfl
    | code n =>
      simp only [usagesInArgs, ih]
      by_cases hn : text n = display
      · cases name with
        | none => simp [hn, positional]
        | some name =>
          simp only [hn, if_true, Bool.false_eq_true, if_false, List.any_cons, positional, Bool.false_or, argUses, showsB,
            beq_self_eq_true, Bool.true_and]
          by_cases hi : (!includes "preview".toList name.toList && !includes "change".toList name.toList) = true
          · simp only [if_pos hi]
            split <;> simp [Except.map]
          · simp only [if_neg hi]
      · have : positional text display (name, .code n) = false := by cases name <;> simp [positional, hn]
        have h2 : showsB text display (name, .code n) = false := by cases name <;> simp [showsB, hn]
        rw [List.any_cons, this, Bool.false_or, if_neg hn, argUses, h2]
        rfl

theorem mem_argUses (display : String) : ∀ (args : List (Option String × ArgVal)) (b k : Nat),
    k ∈ argUses text display b args ↔ ∃ e, b ≤ k ∧ args[k - b]? = some e ∧ ShowsOn text display e
  | [], b, k => by simp [argUses]
  | e :: r, b, k => by
    have ih := mem_argUses display r (b + 1) k
    simp only [argUses]
    have key : (∃ f, b ≤ k ∧ (e :: r)[k - b]? = some f ∧ ShowsOn text display f) ↔
        (k = b ∧ ShowsOn text display e) ∨ ∃ f, b + 1 ≤ k ∧ r[k - (b + 1)]? = some f ∧ ShowsOn text display f := by
      constructor
      · rintro ⟨f, h1, h2, h3⟩
        by_cases hk : k = b
        · subst hk; simp at h2; subst h2; exact .inl ⟨rfl, h3⟩
        · right
          have : k - b = (k - (b + 1)) + 1 := by omega
          rw [this] at h2
          exact ⟨f, by omega, by simpa using h2, h3⟩
      · rintro (⟨rfl, h⟩ | ⟨f, h1, h2, h3⟩)
        · exact ⟨e, by omega, by simp, h⟩
        · have : k - b = (k - (b + 1)) + 1 := by omega
          exact ⟨f, by omega, by rw [this]; simpa using h2, h3⟩
    rw [key, ← ih, ← showsB_iff]
    split <;> simp [*]

theorem nodup_argUses (display : String) : ∀ (args : List (Option String × ArgVal)) (b : Nat),
    (argUses text display b args).Nodup
  | [], b => by simp [argUses]
  | e :: r, b => by
    simp only [argUses]
    have ih := nodup_argUses display r (b + 1)
    split
    · refine List.nodup_cons.2 ⟨?_, ih⟩
      rw [mem_argUses]
      rintro ⟨_, h, _⟩
      omega
    · exact ih

/-- All usages, with the positions of actions (from `i`) and arguments. -/
def uses (text : Node → String) (display : String) : Nat → List ActionDef → List (Nat × Nat × ActionDef)
  | _, [] => []
  | i, a :: r => (argUses text display 0 a.args).map (fun k => (i, k, a)) ++ uses text display (i + 1) r

theorem numbered_cons (i : Nat) (a : ActionDef) (r : List ActionDef) :
    ((a :: r).zipIdx i).map (fun e => (e.2, e.1)) = (i, a) :: (r.zipIdx (i + 1)).map (fun e => (e.2, e.1)) := by
  simp [List.zipIdx_cons]

theorem usagesIn_eq (display : String) : ∀ (l : List ActionDef) (i : Nat),
    usagesIn text display false ((l.zipIdx i).map fun e => (e.2, e.1)) =
      if l.any (fun a => a.args.any (positional text display)) then .error .type
      else .ok ((uses text display i l).map fun u => (u.1, u.2.2))
  | [], i => rfl
  | a :: r, i => by
    rw [numbered_cons]
    simp only [usagesIn, usagesInArgs_eq display (i, a) a.args 0, usagesIn_eq display r (i + 1), List.any_cons, uses]
    by_cases h1 : a.args.any (positional text display) = true
    · simp [h1]
    · simp only [h1, Bool.false_or]
      by_cases h2 : r.any (fun a => a.args.any (positional text display)) = true
      · simp [h2]
      · simp [h2, Function.comp_def]

theorem mem_uses (display : String) : ∀ (l : List ActionDef) (b i k : Nat) (a : ActionDef),
    (i, k, a) ∈ uses text display b l ↔
      b ≤ i ∧ l[i - b]? = some a ∧ ∃ e, a.args[k]? = some e ∧ ShowsOn text display e
  | [], b, i, k, a => by simp [uses]
  | c :: r, b, i, k, a => by
    simp only [uses, List.mem_append, List.mem_map, mem_uses display r (b + 1), mem_argUses]
    constructor
    · rintro (⟨k', ⟨e, _, h1, h2⟩, h3⟩ | ⟨h1, h2, h3⟩)
      · cases h3
        exact ⟨by omega, by simp, e, by simpa using h1, h2⟩
      · have : i - b = (i - (b + 1)) + 1 := by omega
        exact ⟨by omega, by rw [this]; simpa using h2, h3⟩
    · rintro ⟨h1, h2, e, h3, h4⟩
      by_cases hi : i = b
      · subst hi
        simp at h2
        subst h2
        exact .inl ⟨k, ⟨e, by omega, by simpa using h3, h4⟩, rfl⟩
      · have : i - b = (i - (b + 1)) + 1 := by omega
        rw [this] at h2
        exact .inr ⟨by omega, by simpa using h2, e, h3, h4⟩

theorem nodup_uses (display : String) : ∀ (l : List ActionDef) (b : Nat), (uses text display b l).Nodup
  | [], b => by simp [uses]
  | c :: r, b => by
    simp only [uses]
    refine List.nodup_append.2 ⟨?_, nodup_uses display r (b + 1), ?_⟩
    · refine List.Pairwise.map _ ?_ (nodup_argUses display c.args 0)
      intro x y hxy h
      simp at h
      exact hxy h
    · rintro ⟨i, k, a⟩ hx ⟨i', k', a'⟩ hy h
      cases h
      simp at hx
      obtain ⟨_, _, rfl, _⟩ := hx
      rw [mem_uses] at hy
      omega

theorem two_iff {α : Type} (p : α → Bool) : ∀ l : List α, l.Nodup →
    ((l.filter p).length > 1 ↔ ∃ x ∈ l, ∃ y ∈ l, x ≠ y ∧ p x = true ∧ p y = true)
  | [], _ => by simp
  | a :: l, h => by
    obtain ⟨h1, h2⟩ := List.nodup_cons.1 h
    by_cases hp : p a = true
    · rw [List.filter_cons_of_pos hp, List.length_cons]
      constructor
      · intro hl
        have : (l.filter p) ≠ [] := by intro e; simp [e] at hl
        obtain ⟨y, hy⟩ := List.exists_mem_of_ne_nil _ this
        obtain ⟨hy1, hy2⟩ := List.mem_filter.1 hy
        exact ⟨a, by simp, y, by simp [hy1], fun e => h1 (e ▸ hy1), hp, hy2⟩
      · rintro ⟨x, hx, y, hy, hne, px, py⟩
        have : ∃ z, z ∈ l.filter p := by
          rcases List.mem_cons.1 hx with rfl | hx
          · rcases List.mem_cons.1 hy with rfl | hy
            · exact absurd rfl hne
            · exact ⟨y, List.mem_filter.2 ⟨hy, py⟩⟩
          · exact ⟨x, List.mem_filter.2 ⟨hx, px⟩⟩
        obtain ⟨z, hz⟩ := this
        have := List.length_pos_of_mem hz
        omega
    · rw [List.filter_cons_of_neg hp, two_iff p l h2]
      constructor
      · rintro ⟨x, hx, y, hy, h⟩
        exact ⟨x, List.mem_cons_of_mem _ hx, y, List.mem_cons_of_mem _ hy, h⟩
      · rintro ⟨x, hx, y, hy, hne, px, py⟩
        have hx' : x ∈ l := by rcases List.mem_cons.1 hx with rfl | hx; exact absurd px hp; exact hx
        have hy' : y ∈ l := by rcases List.mem_cons.1 hy with rfl | hy; exact absurd py hp; exact hy
        exact ⟨x, hx', y, hy', hne, px, py⟩

/-! ### Messages -/

/-- All pages of all pagers. -/
def groups (pagers : List (Option String × List (Option String))) : List (Option String × Option String) :=
  pagers.flatMap fun p => p.2.map fun q => (p.1, q)

theorem mem_addPage (pg pa : Option String) (x : Option String × Option String) : ∀ l,
    x ∈ groups (addPage pg pa l) ↔ x ∈ groups l ∨ x = (pg, pa)
  | [] => by simp [addPage, groups]
  | (p, pages) :: r => by
    have ih := mem_addPage pg pa x r
    simp only [addPage]
    by_cases hp : p = pg
    · subst hp
      simp only [if_true, groups, List.flatMap_cons, List.mem_append, List.mem_map]
      by_cases hc : pages.contains pa = true
      · have : pa ∈ pages := by simpa using hc
        simp only [hc, if_true]
        constructor
        · exact .inl
        · rintro (h | rfl)
          · exact h
          · exact .inl ⟨pa, this, rfl⟩
      · simp only [hc, if_false, Bool.false_eq_true]
        simp only [List.mem_append, List.mem_singleton]
        grind
    · simp only [if_neg hp, groups, List.flatMap_cons, List.mem_append]
      simp only [groups] at ih
      rw [ih, or_assoc]

theorem mem_pagers (us : List (Nat × ActionDef)) (x : Option String × Option String) : ∀ acc,
    x ∈ groups (us.foldl (fun acc u => addPage (pager text u.2) (page text u.2) acc) acc) ↔
      x ∈ groups acc ∨ ∃ u ∈ us, x = (pager text u.2, page text u.2) := by
  induction us with
  | nil => simp
  | cons u us ih =>
    intro acc
    rw [List.foldl_cons, ih, mem_addPage]
    simp [or_assoc]

theorem fold_groups {β : Type} (f : Option String → Option String → β → β) : ∀ (pagers : List (Option String × List (Option String))) (b : β),
    pagers.foldl (fun b p => p.2.foldl (fun b q => f p.1 q b) b) b = (groups pagers).foldl (fun b x => f x.1 x.2 b) b
  | [], b => rfl
  | p :: r, b => by
    have hg : groups (p :: r) = (p.2.map fun q => (p.1, q)) ++ groups r := by simp [groups]
    rw [List.foldl_cons, fold_groups f r, hg, List.foldl_append, List.foldl_map]

/-- What is known about the display `d`. -/
def Listed (msgs : List Message) (d : String) (i : Nat) : Prop := ∃ m ∈ msgs, m.value = d ∧ i ∈ m.actions

def Warned (msgs : List Message) (d : String) : Prop := ∃ m ∈ msgs, m.value = d

theorem warned_add (m : Message) (d : String) : ∀ msgs, Warned (addMessage m msgs) d ↔ Warned msgs d ∨ m.value = d
  | [] => by simp [addMessage, Warned]
  | m' :: r => by
    have ih := warned_add m d r
    simp only [Warned] at ih ⊢
    simp only [addMessage]
    split
    · rename_i h; simp; grind
    · simp only [List.mem_cons, exists_eq_or_imp, ih, or_assoc]

theorem listed_add (m : Message) (d : String) (i : Nat) : ∀ msgs,
    Listed (addMessage m msgs) d i ↔ Listed msgs d i ∨ m.value = d ∧ i ∈ m.actions
  | [] => by simp [addMessage, Listed]
  | m' :: r => by
    have ih := listed_add m d i r
    simp only [Listed] at ih ⊢
    simp only [addMessage]
    split
    · rename_i h; simp [List.mem_eraseDups]; grind
    · simp only [List.mem_cons, exists_eq_or_imp, ih, or_assoc]

theorem values_add (m : Message) : ∀ msgs, (msgs.map Message.value).Nodup → ((addMessage m msgs).map Message.value).Nodup
  | [], _ => by simp [addMessage]
  | m' :: r, h => by
    simp only [List.map_cons, List.nodup_cons] at h
    simp only [addMessage]
    split
    · simp [h]
    · rename_i hne
      simp only [List.map_cons, List.nodup_cons]
      refine ⟨?_, values_add m r h.2⟩
      intro hm
      obtain ⟨x, hx, hv⟩ := List.mem_map.1 hm
      have := (warned_add m m'.value r).1 ⟨x, hx, hv⟩
      rcases this with ⟨y, hy, hyv⟩ | h'
      · exact h.1 (List.mem_map.2 ⟨y, hy, hyv⟩)
      · exact hne h'.symm

theorem fold_warn (display : String) (us : List (Nat × ActionDef)) : ∀ (gs : List (Option String × Option String)) (msgs : List Message),
    (∀ d, Warned (gs.foldl (fun m x => warn text display us x.1 x.2 m) msgs) d ↔
      Warned msgs d ∨ d = display ∧ ∃ x ∈ gs, (together text x.1 x.2 us).length > 1) ∧
    (∀ d i, Listed (gs.foldl (fun m x => warn text display us x.1 x.2 m) msgs) d i ↔
      Listed msgs d i ∨ d = display ∧ ∃ x ∈ gs, (together text x.1 x.2 us).length > 1 ∧ i ∈ (together text x.1 x.2 us).map (·.1)) ∧
    ((msgs.map Message.value).Nodup → ((gs.foldl (fun m x => warn text display us x.1 x.2 m) msgs).map Message.value).Nodup)
  | [], msgs => by simp
  | g :: gs, msgs => by
    obtain ⟨h1, h2, h3⟩ := fold_warn display us gs (warn text display us g.1 g.2 msgs)
    simp only [List.foldl_cons, h1, h2]
    refine ⟨fun d => ?_, fun d i => ?_, fun h => h3 ?_⟩
    · simp only [warn]
      split
      · rename_i h
        rw [warned_add]
        simp only [List.mem_cons, exists_eq_or_imp, h, true_or, and_true]
        grind
      · rename_i h
        simp only [List.mem_cons, exists_eq_or_imp, h, false_or]
    · simp only [warn]
      split
      · rename_i h
        rw [listed_add]
        simp only [List.mem_cons, exists_eq_or_imp, h, true_and]
        grind
      · rename_i h
        simp only [List.mem_cons, exists_eq_or_imp, h, false_and, false_or]
    · simp only [warn]
      split
      · exact values_add _ _ h
      · exact h

/-- Two usages at different places which can be seen together. -/
theorem together_iff (display : String) (l : List ActionDef) (u : Nat × Nat × ActionDef) :
    (∃ y ∈ uses text display 0 l, y ≠ u ∧ u ∈ uses text display 0 l ∧
      (pager text y.2.2 ≠ pager text u.2.2 ∨ page text y.2.2 = page text u.2.2)) ↔
    ∃ j k b, Collide text l display u.1 u.2.1 j k ∧ l[u.1]? = some u.2.2 ∧ l[j]? = some b := by
  constructor
  · rintro ⟨⟨j, k, b⟩, hy, hne, hu, hc⟩
    obtain ⟨i, k', a⟩ := u
    obtain ⟨cur, c1, c2⟩ := (compatible_iff a b).1 hc
    rw [mem_uses] at hu hy
    obtain ⟨_, hu1, e, he, hse⟩ := hu
    obtain ⟨_, hy1, f, hf, hsf⟩ := hy
    refine ⟨j, k, b, ⟨?_, cur, a, b, e, f, by simpa using hu1, by simpa using hy1, he, hf, hse, hsf, c1, c2⟩, by simpa using hu1, by simpa using hy1⟩
    rintro ⟨rfl, rfl⟩
    rw [hu1] at hy1
    cases hy1
    exact hne rfl
  · rintro ⟨j, k, b, ⟨hne, cur, a, b', e, f, h1, h2, h3, h4, h5, h6, c1, c2⟩, h7, h8⟩
    rw [h1] at h7; cases h7
    rw [h2] at h8; cases h8
    refine ⟨(j, k, b), (mem_uses ..).2 ⟨by omega, by simpa using h2, f, h4, h6⟩, ?_, ?_, (compatible_iff ..).2 ⟨cur, c1, c2⟩⟩
    · intro h; apply hne; rw [← h]
    · obtain ⟨i, k', a'⟩ := u
      exact (mem_uses ..).2 ⟨by omega, by simpa using h1, e, h3, h5⟩

end PySwitch.Lemmas.Checks
