import Verif.Props.Editor

/-!
The configuration editor: a saved file sets its variables before they are used.
-/

namespace PySwitch.Props
open PySwitch.Editor PySwitch.Spec.Editor

namespace C106
open PySwitch.Lemmas.Editor

/-- `P` holds for every statement, together with the variables set before. -/
def scan (P : (String → Prop) → Stmt → Prop) : (String → Prop) → List Stmt → Prop
  | _, [] => True
  | B, s :: rest => P B s ∧ scan P (fun x => B x ∨ x ∈ targets s) rest

def Mono (P : (String → Prop) → Stmt → Prop) : Prop :=
  ∀ B B' s, (∀ x, B x → B' x) → P B s → P B' s

theorem scan_iff {P} : ∀ {l : List Stmt} {B : String → Prop},
    scan P B l ↔ ∀ pre s post, l = pre ++ s :: post → P (fun x => B x ∨ Sets pre x) s
  | [], B => by simp [scan]
  | a :: l, B => by
    rw [scan, scan_iff]
    constructor
    · rintro ⟨h1, h2⟩ pre s post he
      cases pre with
      | nil =>
        simp at he
        obtain ⟨rfl, rfl⟩ := he
        simpa [Sets] using h1
      | cons c pre =>
        simp at he
        obtain ⟨rfl, rfl⟩ := he
        have := h2 pre s post rfl
        have e : (fun x => (B x ∨ x ∈ targets a) ∨ Sets pre x) = fun x => B x ∨ Sets (a :: pre) x := by
          funext x; simp [Sets, or_assoc]
        rwa [e] at this
    · intro h
      refine ⟨?_, fun pre s post he => ?_⟩
      · have := h [] a l rfl
        simpa [Sets] using this
      · have := h (a :: pre) s post (by rw [he]; rfl)
        have e : (fun x => (B x ∨ x ∈ targets a) ∨ Sets pre x) = fun x => B x ∨ Sets (a :: pre) x := by
          funext x; simp [Sets, or_assoc]
        rwa [e]

theorem scan_imp {P Q : (String → Prop) → Stmt → Prop} : ∀ {l : List Stmt} {B : String → Prop},
    (∀ B, ∀ s ∈ l, P B s → Q B s) → scan P B l → scan Q B l
  | [], _, _, _ => trivial
  | s :: l, B, h, hp => by
    exact ⟨h B s (List.mem_cons_self ..) hp.1,
      scan_imp (fun B t ht => h B t (List.mem_cons_of_mem _ ht)) hp.2⟩

theorem scan_mono {P} (hP : Mono P) : ∀ {l : List Stmt} {B B' : String → Prop},
    (∀ x, B x → B' x) → scan P B l → scan P B' l
  | [], _, _, _, _ => trivial
  | s :: l, B, B', h, hp => by
    refine ⟨hP B B' s h hp.1, scan_mono hP (fun x hx => ?_) hp.2⟩
    exact hx.imp (h x) id

theorem scan_and {P Q : (String → Prop) → Stmt → Prop} : ∀ {l : List Stmt} {B : String → Prop},
    scan P B l → scan Q B l → scan (fun B s => P B s ∧ Q B s) B l
  | [], _, _, _ => trivial
  | _ :: _, _, hp, hq => ⟨⟨hp.1, hq.1⟩, scan_and hp.2 hq.2⟩

theorem scan_map {P f} (hf : ∀ s, targets (f s) = targets s) :
    ∀ {l : List Stmt} {B : String → Prop}, scan P B (l.map f) ↔ scan (fun B s => P B (f s)) B l
  | [], B => by simp [scan]
  | s :: l, B => by simp only [List.map_cons, scan, hf, scan_map hf]

/-- Putting new statements in front of others. -/
theorem scan_add {P x v top} (hP : Mono P) : ∀ {l : List Stmt} {B : String → Prop},
    scan (fun B s => P B s ∧ (top ∈ targets s → P B (.assign [x] v))) B l →
    scan P B (l.flatMap (inserted x v top))
  | [], _, _ => trivial
  | s :: l, B, h => by
    obtain ⟨⟨h1, h2⟩, h3⟩ := h
    have ih := scan_add hP h3
    rw [List.flatMap_cons]
    simp only [inserted]
    by_cases hs : s.assigns top = true
    · rw [if_pos hs]
      refine ⟨h2 ((assigns_iff ..).1 hs), hP _ _ _ (fun _ => .inl) h1, scan_mono hP (fun y hy => ?_) ih⟩
      exact hy.imp .inl id
    · rw [if_neg hs]
      exact ⟨h1, ih⟩

/-! The two notions by means of `scan`. -/

def usesOk (refs : String → List String) (body : List Stmt) (B : String → Prop) (s : Stmt) : Prop :=
  ∀ x ∈ stmtUses refs s, Sets body x → B x

def afterOf (y x : String) (B : String → Prop) (s : Stmt) : Prop := x ∈ targets s → B y

theorem mono_uses {refs body} : Mono (usesOk refs body) :=
  fun _ _ _ h hp x hx hs => h x (hp x hx hs)

theorem mono_after {y x} : Mono (afterOf y x) := fun _ _ _ h hp hx => h y (hp hx)

theorem defined_iff {refs body} :
    DefinedBeforeUse refs body ↔ scan (usesOk refs body) (fun _ => False) body := by
  rw [scan_iff]
  simp [DefinedBeforeUse, usesOk]

theorem before_iff {y x body} : SetBefore body y x ↔ scan (afterOf y x) (fun _ => False) body := by
  rw [scan_iff]
  simp [SetBefore, afterOf]

theorem before_replace {y z x v body} (h : SetBefore body y z) :
    SetBefore (replace x v body) y z := by
  rw [before_iff] at h ⊢
  rw [replace_eq, scan_map (targets_swap x v)]
  exact scan_imp (fun B s _ hp => by simpa [afterOf, targets_swap] using hp) h

theorem before_add {y z x v top body} (h : SetBefore body y z) (hz : z ≠ x) :
    SetBefore (add x v (some top) body) y z := by
  rw [before_iff] at h ⊢
  rw [add_some]
  refine scan_add mono_after (scan_imp (fun B s _ hp => ⟨hp, fun _ => ?_⟩) h)
  simp [afterOf, targets, hz]

theorem before_new {x v top body} (hx : x ≠ top) : SetBefore (add x v (some top) body) x top := by
  rw [before_iff, add_some]
  generalize (fun _ : String => False) = B
  induction body generalizing B with
  | nil => trivial
  | cons s body ih =>
    rw [List.flatMap_cons]
    simp only [inserted]
    by_cases hs : s.assigns top = true
    · rw [if_pos hs]
      refine ⟨?_, ?_, ?_⟩
      · simp [afterOf, targets, Ne.symm hx]
      · intro _; simp [targets]
      · exact ih _
    · rw [if_neg hs]
      refine ⟨?_, ih _⟩
      intro h
      exact absurd ((assigns_iff ..).2 h) hs

/-! ### The names of what is generated -/

mutual
theorem uses_nodeOf {refs} : ∀ d : Data, uses refs (nodeOf d) = needs refs d
  | .code n => by simp [nodeOf, needs]
  | .list items => by simp [nodeOf, needs, uses, uses_itemsOf items]
  | .call name args none => by simp [nodeOf, needs, uses, uses_argsOf args]
  | .call name args (some x) => by simp [nodeOf, needs, uses]
  | .dict args none => by simp [nodeOf, needs, uses, uses_elementsOf args]
  | .dict args (some x) => by simp [nodeOf, needs, uses]
  | .val value none => by simp [nodeOf, needs, uses_nodeOf value]
  | .val value (some x) => by simp [nodeOf, needs, uses]

theorem uses_itemsOf {refs} : ∀ d : Entries, usesIn refs (itemsOf d) = needsIn refs d
  | .nil => rfl
  | .cons _ value rest => by simp [itemsOf, usesIn, needsIn, uses_nodeOf value, uses_itemsOf rest]

theorem uses_argsOf {refs} : ∀ d : Entries, usesIn refs (argsOf d) = needsIn refs d
  | .nil => rfl
  | .cons _ value rest => by simp [argsOf, usesIn, needsIn, uses_nodeOf value, uses_argsOf rest]

theorem uses_elementsOf {refs} : ∀ d : Entries, usesIn refs (elementsOf d) = needsIn refs d
  | .nil => rfl
  | .cons _ value rest => by
    simp [elementsOf, usesIn, needsIn, uses_nodeOf value, uses_elementsOf rest]
end

theorem uses_rawOf {refs} (d : Data) : uses refs (rawOf d) = needs refs (content d) := by
  cases d with
  | code n => simp [rawOf, content, uses_nodeOf]
  | list items => simp [rawOf, content, uses_nodeOf]
  | call name args a => simp [rawOf, content, uses, needs, uses_argsOf]
  | dict args a => simp [rawOf, content, uses, needs, uses_elementsOf]
  | val value a => simp [rawOf, content, needs, uses_nodeOf]

/-! ### Parts come before the whole -/

def Closed (l : List (String × Data)) : Prop :=
  ∀ L e R, l = L ++ e :: R → ∀ v ∈ variables (content e.2), v ∈ L.map (·.1)

theorem closed_append {l l'} (h : Closed l) (h' : Closed l') : Closed (l ++ l') := by
  intro L e R he v hv
  rcases List.append_eq_append_iff.1 he with ⟨m, h1, h2⟩ | ⟨m, h1, h2⟩
  · -- the entry is in l'
    subst h1
    have := h' m e R h2 v hv
    simp at this ⊢
    exact .inr this
  · cases m with
    | nil =>
      simp at h1 h2
      have := h' [] e R (by simpa using h2.symm) v hv
      simp at this
    | cons c m =>
      simp at h2
      obtain ⟨rfl, rfl⟩ := h2
      exact h L e m h1 v hv

theorem closed_one {l x d} (h : Closed l) (hd : named (content d) = l) : Closed (l ++ [(x, d)]) := by
  intro L e R he v hv
  rcases List.append_eq_append_iff.1 he with ⟨m, h1, h2⟩ | ⟨m, h1, h2⟩
  · cases m with
    | nil =>
      simp at h1 h2
      obtain ⟨rfl, rfl⟩ := h2
      subst h1
      simpa [variables, hd] using hv
    | cons c m => simp at h2
  · cases m with
    | nil =>
      simp at h1 h2
      obtain ⟨rfl, rfl⟩ := h2
      subst h1
      simpa [variables, hd] using hv
    | cons c m =>
      simp at h2
      obtain ⟨rfl, rfl⟩ := h2
      exact h L e m h1 v hv

theorem closed_nil : Closed [] := by
  intro L e R he; simp at he

mutual
theorem closed_named : ∀ d : Data, Closed (named d)
  | .code _ => by simpa [named] using closed_nil
  | .list items => by simpa [named] using closed_namedIn items
  | .call name args none => by simpa [named] using closed_namedIn args
  | .call name args (some x) => by
    simp only [named, Option.map_some, Option.toList_some]
    exact closed_one (closed_namedIn args) (by simp [content, named])
  | .dict args none => by simpa [named] using closed_namedIn args
  | .dict args (some x) => by
    simp only [named, Option.map_some, Option.toList_some]
    exact closed_one (closed_namedIn args) (by simp [content, named])
  | .val value none => by simpa [named] using closed_named value
  | .val value (some x) => by
    simp only [named, Option.map_some, Option.toList_some]
    exact closed_one (closed_named value) (by simp [content, named])

theorem closed_namedIn : ∀ d : Entries, Closed (namedIn d)
  | .nil => by simpa [namedIn] using closed_nil
  | .cons _ value rest => by
    simp only [namedIn]
    exact closed_append (closed_named value) (closed_namedIn rest)
end

theorem stmtUses_swap {refs x v s} (h : x ∈ targets s) :
    stmtUses refs (swap x v s) = uses refs v := by
  cases s <;> simp_all [swap, stmtUses, targets]

theorem swap_other {x v s} (h : x ∉ targets s) : swap x v s = s := by
  cases s <;> simp_all [swap, targets]

theorem ordered_replace {refs x v b} (ho : DefinedBeforeUse refs b)
    (hv : ∀ y ∈ uses refs v, Sets b y → SetBefore b y x) :
    DefinedBeforeUse refs (replace x v b) := by
  rw [defined_iff, replace_eq, scan_map (targets_swap x v), scan_iff]
  intro pre s post he y hy hs
  rw [← replace_eq, sets_replace] at hs
  refine .inr ?_
  by_cases hx : x ∈ targets s
  · rw [stmtUses_swap hx] at hy
    exact hv y hy hs pre s post he hx
  · rw [swap_other hx] at hy
    exact ho pre s post he y hy hs

theorem ordered_add {refs x v top b} (ho : DefinedBeforeUse refs b)
    (hx : ∀ s ∈ b, x ∉ stmtUses refs s) (hx' : x ∉ uses refs v)
    (hv : ∀ y ∈ uses refs v, Sets b y → SetBefore b y top) :
    DefinedBeforeUse refs (add x v (some top) b) := by
  rw [defined_iff]
  rw [add_some]
  refine scan_add mono_uses ?_
  rw [scan_iff]
  intro pre s post he
  have hmem : s ∈ b := by rw [he]; simp
  refine ⟨fun y hy hs => .inr ?_, fun ht y hy hs => .inr ?_⟩
  · rw [← add_some, sets_add] at hs
    rcases hs with hs | ⟨rfl, _⟩
    · exact ho pre s post he y hy hs
    · exact absurd hy (hx s hmem)
  · rw [← add_some, sets_add] at hs
    rcases hs with hs | ⟨rfl, _⟩
    · exact hv y hy hs pre s post he ht
    · exact absurd hy hx'

theorem before_sets {body y x} (h : SetBefore body y x) (hx : Sets body x) : Sets body y := by
  obtain ⟨s, hs, ht⟩ := hx
  obtain ⟨pre, post, rfl⟩ := List.append_of_mem hs
  obtain ⟨t, h1, h2⟩ := h pre s post rfl ht
  exact ⟨t, by simp [h1], h2⟩

/-- What holds after the variables `L` have been set. -/
structure Inv (refs : String → List String) (top : String) (body : List Stmt) (d : Data)
    (L : List (String × Data)) (b : List Stmt) : Prop where
  one : OneEach b
  sets : ∀ y, Sets b y ↔ Sets body y ∨ y ∈ L.map (·.1)
  ord : DefinedBeforeUse refs b
  keep : ∀ y z, Sets body z → SetBefore body y z → SetBefore b y z
  new : ∀ y ∈ L.map (·.1), ¬Sets body y → SetBefore b y top
  val : ∀ x s, (x, s) ∈ L → ∀ ts v, .assign ts v ∈ b → x ∈ ts → v = rawOf s
  unused : ∀ x ∈ variables d, ¬Sets b x → ∀ s ∈ b, x ∉ stmtUses refs s

theorem replace_same {x v b} (h : ∀ ts w, Stmt.assign ts w ∈ b → x ∈ ts → w = v) :
    replace x v b = b := by
  rw [replace_eq]
  conv => rhs; rw [← List.map_id b]
  apply List.map_congr_left
  intro s hs
  cases s with
  | assign ts w =>
    simp only [swap, id]
    by_cases hx : x ∈ ts
    · rw [h ts w hs hx]; split <;> rfl
    · simp [hx]
  | _ => rfl

theorem one_targets {b ts v x y} (h : OneEach b) (hm : Stmt.assign ts v ∈ b) (hx : x ∈ ts)
    (hy : y ∈ ts) : x = y := by
  have := h _ hm
  simp only [targets] at this
  match ts, this with
  | [], _ => simp at hx
  | [a], _ => simp at hx hy; rw [hx, hy]

theorem step {refs top body d L x s R b} (hl : named d = L ++ (x, s) :: R)
    (htop : Sets body top) (hxt : x ≠ top) (hc : Consistent d) (hf : Fits refs top body d)
    (h : Inv refs top body d L b) :
    Inv refs top body d (L ++ [(x, s)]) (setAssignment x (rawOf s) (some top) b) := by
  have hmem : (x, s) ∈ named d := by rw [hl]; simp
  have hcl := closed_named d L (x, s) R hl
  have hbt : Sets b top := (h.sets top).2 (.inl htop)
  have hspec := set_spec (x := x) (value := rawOf s) h.one hbt
  have hsets : ∀ y, Sets (setAssignment x (rawOf s) (some top) b) y ↔
      Sets body y ∨ y ∈ (L ++ [(x, s)]).map (·.1) := by
    intro y
    rw [hspec.2.1 y, h.sets y]
    simp [or_assoc]
  by_cases hxL : x ∈ L.map (·.1)
  · -- set already, to the same value
    obtain ⟨⟨x', t⟩, ht, rfl⟩ := List.mem_map.1 hxL
    have hst : t = s := hc x' t s (by rw [hl]; simp [ht]) hmem
    subst hst
    have hbx : Sets b x' := (h.sets x').2 (.inr hxL)
    have e : setAssignment x' (rawOf t) (some top) b = b := by
      simp only [setAssignment, (any_assigns x' b).2 hbx, if_true]
      exact replace_same (fun ts w hw hx => h.val x' t ht ts w hw hx)
    simp only at hsets ⊢
    rw [e] at hsets ⊢
    refine ⟨h.one, hsets, h.ord, h.keep, ?_, ?_, h.unused⟩
    · intro y hy
      refine h.new y ?_
      simp only [List.map_append, List.mem_append, List.map_cons, List.map_nil,
        List.mem_singleton] at hy
      rcases hy with hy | rfl
      · exact hy
      · exact hxL
    · intro y u hu
      refine h.val y u ?_
      simp at hu
      rcases hu with hu | ⟨rfl, rfl⟩
      · exact hu
      · exact ht
  · by_cases hbody : Sets body x
    · -- a variable of the file
      have hbx : Sets b x := (h.sets x).2 (.inl hbody)
      have e : setAssignment x (rawOf s) (some top) b = replace x (rawOf s) b := by
        simp only [setAssignment, (any_assigns x b).2 hbx, if_true]
      have hold := hf.old x s hmem hbody
      rw [e] at hsets ⊢
      refine ⟨oneEach_replace h.one, hsets, ordered_replace h.ord ?_, ?_, ?_, ?_, ?_⟩
      · intro y hy hs
        rw [uses_rawOf] at hy
        refine h.keep y x hbody (hold y hy ?_)
        rcases (h.sets y).1 hs with hs | hs
        · exact .inl hs
        · refine .inr ?_
          simp only [variables, hl, List.map_append, List.mem_append]
          exact .inl hs
      · intro y z hz hyz
        exact before_replace (h.keep y z hz hyz)
      · intro y hy hn
        simp only [List.map_append, List.mem_append, List.map_cons, List.map_nil,
          List.mem_singleton] at hy
        rcases hy with hy | rfl
        · exact before_replace (h.new y hy hn)
        · exact absurd hbody hn
      · intro y u hu ts v hv hy
        rw [replace_eq] at hv
        obtain ⟨t, ht, htv⟩ := List.mem_map.1 hv
        cases t with
        | assign ts' w =>
          have hts : ts' = ts := by
            have := congrArg targets htv
            rw [targets_swap] at this
            exact this
          subst hts
          by_cases hx : x ∈ ts'
          · have hxy := one_targets h.one ht hx hy
            subst hxy
            have : v = rawOf s := by
              simp [swap, hx] at htv; exact htv.symm
            rw [this]
            have hsu : s = u := by
              refine hc x s u hmem ?_
              rw [hl]
              simp at hu
              rcases hu with hu | hu
              · simp [hu]
              · simp [hu]
            rw [hsu]
          · have : v = w := by simp [swap, hx] at htv; exact htv.symm
            subst this
            simp at hu
            rcases hu with hu | ⟨rfl, rfl⟩
            · exact h.val y u hu ts' v ht hy
            · exact absurd hy hx
        | _ => simp [swap] at htv
      · intro y hy hn t ht
        rw [sets_replace] at hn
        rw [replace_eq] at ht
        obtain ⟨t', ht', rfl⟩ := List.mem_map.1 ht
        by_cases hx : x ∈ targets t'
        · rw [stmtUses_swap hx, uses_rawOf]
          intro hu
          exact hn ((h.sets y).2 (.inl (before_sets (hold y hu (.inr hy)) hbody)))
        · rw [swap_other hx]
          exact h.unused y hy hn t' ht'
    · -- a new variable
      have hbx : ¬Sets b x := fun hs => ((h.sets x).1 hs).elim hbody hxL
      have e : setAssignment x (rawOf s) (some top) b = add x (rawOf s) (some top) b := by
        have : b.any (Stmt.assigns x) = false := by
          rw [Bool.eq_false_iff]; exact fun hh => hbx ((any_assigns x b).1 hh)
        simp [setAssignment, this]
      have hnew := hf.new x s hmem hbody
      have hxv : x ∈ variables d := by
        simp only [variables, List.mem_map]; exact ⟨(x, s), hmem, rfl⟩
      rw [e] at hsets ⊢
      refine ⟨oneEach_add h.one, hsets, ordered_add h.ord (h.unused x hxv hbx) ?_ ?_, ?_, ?_, ?_, ?_⟩
      · rw [uses_rawOf]
        intro hu
        exact hxL (hcl x ((hnew x hu).2 hbody hxv))
      · intro y hy hs
        rw [uses_rawOf] at hy
        by_cases hyb : Sets body y
        · exact h.keep y top htop ((hnew y hy).1 hyb)
        · exact h.new y (((h.sets y).1 hs).resolve_left hyb) hyb
      · intro y z hz hyz
        exact before_add (h.keep y z hz hyz) (fun e => hbody (e ▸ hz))
      · intro y hy hn
        simp only [List.map_append, List.mem_append, List.map_cons, List.map_nil,
          List.mem_singleton] at hy
        rcases hy with hy | rfl
        · exact before_add (h.new y hy hn) (Ne.symm hxt)
        · exact before_new hxt
      · intro y u hu ts v hv hy
        rw [add_some] at hv
        obtain ⟨t, ht, htv⟩ := List.mem_flatMap.1 hv
        have hcase : Stmt.assign ts v = .assign [x] (rawOf s) ∨ Stmt.assign ts v ∈ b := by
          simp only [inserted] at htv
          split at htv
          · simp only [List.mem_cons, List.not_mem_nil, or_false] at htv
            rcases htv with htv | htv
            · exact .inl htv
            · exact .inr (htv ▸ ht)
          · simp only [List.mem_singleton] at htv
            exact .inr (htv ▸ ht)
        simp at hu
        rcases hcase with hcase | hcase
        · injection hcase with h1 h2
          subst h1 h2
          simp at hy
          subst hy
          rcases hu with hu | hu
          · exact absurd (List.mem_map.2 ⟨_, hu, rfl⟩) hxL
          · rw [hu.2]
        · rcases hu with hu | ⟨rfl, rfl⟩
          · exact h.val y u hu ts v hcase hy
          · exact absurd ⟨_, hcase, by simpa [targets] using hy⟩ hbx
      · intro y hy hn t ht
        have hyb : ¬Sets b y := fun hh => hn (sets_add.2 (.inl hh))
        rw [add_some] at ht
        obtain ⟨t', ht', htv⟩ := List.mem_flatMap.1 ht
        have hcase : t = .assign [x] (rawOf s) ∨ t ∈ b := by
          simp only [inserted] at htv
          split at htv
          · simp only [List.mem_cons, List.not_mem_nil, or_false] at htv
            rcases htv with htv | htv
            · exact .inl htv
            · exact .inr (htv ▸ ht')
          · simp only [List.mem_singleton] at htv
            exact .inr (htv ▸ ht')
        rcases hcase with rfl | hcase
        · simp only [stmtUses, uses_rawOf]
          intro hu
          have hyb' : ¬Sets body y := fun hh => hyb ((h.sets y).2 (.inl hh))
          exact hyb ((h.sets y).2 (.inr (hcl y ((hnew y hu).2 hyb' hy))))
        · exact h.unused y hy hyb t hcase

theorem all {refs top body d} (htop : Sets body top) (hxt : ∀ x ∈ variables d, x ≠ top)
    (hc : Consistent d) (hf : Fits refs top body d) :
    ∀ (R L : List (String × Data)) (b : List Stmt), named d = L ++ R → Inv refs top body d L b →
      Inv refs top body d (named d) (applyAll top R b)
  | [], L, b, hl, h => by
    rw [List.append_nil] at hl
    rw [hl]; exact h
  | (x, s) :: R, L, b, hl, h => by
    have hx : x ≠ top := hxt x (by
      simp only [variables, List.mem_map]; exact ⟨(x, s), by rw [hl]; simp, rfl⟩)
    exact all htop hxt hc hf R (L ++ [(x, s)]) _ (by rw [hl]; simp) (step hl htop hx hc hf h)

end C106

open PySwitch.Lemmas.Editor in
/-- **C106** If every variable of the file is set before it is used, this is so for the saved file
as well: for every file with the variable `top` which sets at most one variable per statement, and
every consistent tree as the editor shows it, whose variables fit into the file. -/
theorem C106_order_partial (refs : String → List String) (argNames : String → List String)
    (free : String → Prop) (top : String) (body : List Stmt) (d : Data)
    (hone : OneEach body) (htop : Sets body top) (hd : Shown argNames free top (content d))
    (hc : Consistent (content d)) (hf : Fits refs top body (content d))
    (ho : DefinedBeforeUse refs body) :
    ∃ saved, setTop top d body = .ok saved ∧ DefinedBeforeUse refs saved := by
  refine ⟨_, C103.setTop_ok body hd, ?_⟩
  have hxt : ∀ x ∈ variables (content d), x ≠ top := by
    intro x hx
    simp only [variables, List.mem_map] at hx
    obtain ⟨⟨x', s⟩, hm, rfl⟩ := hx
    exact (variables_plain _ hd x' s hm).1
  have h0 : C106.Inv refs top body (content d) [] body :=
    ⟨hone, by simp, ho, fun _ _ _ h => h, by simp, by simp, hf.fresh⟩
  have h := C106.all htop hxt hc hf _ [] body rfl h0
  rw [C103.setTop_existing ((h.sets top).2 (.inl htop))]
  refine C106.ordered_replace h.ord ?_
  intro y hy hs
  rw [C106.uses_nodeOf] at hy
  by_cases hb : Sets body y
  · exact h.keep y top htop (hf.whole y hy hb)
  · exact h.new y (((h.sets y).1 hs).resolve_left hb) hb

namespace C106
/-- `A = CALL()`, `Inputs = [A]` -/
def file : List Stmt :=
  [.assign ["A"] (.call "CALL" .nil), .assign ["Inputs"] (.list (.cons {} (.name "A") .nil))]

/-- The user adds an input to the list, with a new variable inside. -/
def wider : Data :=
  .list (.cons none (.call "CALL" .nil (some "A"))
    (.cons none (.call "OTHER" (.cons (some "x") (.call "NEW" (.cons none (.code (.name "A")) .nil)
      (some "_b")) .nil) none) .nil))

/-- The user gives the variable `A` a parameter, with a new variable inside. -/
def deeper : Data :=
  .list (.cons none (.call "CALL" (.cons (some "x") (.call "NEW" .nil (some "_b")) .nil)
    (some "A")) .nil)

/-- The file after saving the second tree: `A = CALL(x = _b)` comes before `_b = NEW()`. -/
def saved : List Stmt :=
  [.assign ["A"] (.call "CALL" (.cons { key := some "x" } (.name "_b") .nil)),
   .assign ["_b"] (.call "NEW" .nil),
   .assign ["Inputs"] (.list (.cons {} (.name "A") .nil))]

theorem file_ok (refs : String → List String) (h : refs "CALL" = ["CALL"]) :
    DefinedBeforeUse refs file := by
  rw [defined_iff]
  simp [scan, file, usesOk, stmtUses, uses, usesIn, h, Sets, targets]
end C106

/-- The hypotheses of `C106_order_partial` can be met: a new input, with a new variable which uses
a variable of the file. -/
example : ∃ saved, setTop "Inputs" C106.wider C106.file = .ok saved ∧
    DefinedBeforeUse (fun f => [f]) saved := by
  refine C106_order_partial _ inputsArgNames (fun x => x = "A") "Inputs" C106.file C106.wider ?_ ?_ ?_ ?_ ?_ ?_
  · simp [OneEach, C106.file, targets]
  · decide
  · simp [C106.wider, content, Shown, ShownItems, ShownArgs, PlainAssign, inputsArgNames]
  · intro x s t
    simp [C106.wider, content, named, namedIn]
    grind
  · have hb : SetBefore C106.file "A" "Inputs" := by
      rw [C106.before_iff]; simp [C106.scan, C106.file, C106.afterOf, targets]
    refine ⟨?_, ?_, ?_, ?_⟩
    · simp [C106.wider, content, variables, named, namedIn, C106.file, Sets, targets, stmtUses,
        uses, usesIn]
    · intro x s hm hn y hy
      simp [C106.wider, content, named, namedIn] at hm
      rcases hm with ⟨rfl, rfl⟩ | ⟨rfl, rfl⟩
      · exact absurd (by decide) hn
      · simp [content, needs, needsIn, uses] at hy
        rcases hy with rfl | rfl
        · exact ⟨fun h => absurd h (by decide), by
            simp [C106.wider, content, variables, named, namedIn]⟩
        · exact ⟨fun _ => hb, fun h => absurd (by decide) h⟩
    · intro x s hm hs y hy
      simp [C106.wider, content, named, namedIn] at hm
      rcases hm with ⟨rfl, rfl⟩ | ⟨rfl, rfl⟩
      · simp [content, needs, needsIn] at hy
        subst hy
        intro h
        rcases h with h | h
        · exact absurd h (by decide)
        · simp [C106.wider, content, variables, named, namedIn] at h
      · exact absurd hs (by decide)
    · intro y hy hs
      simp [C106.wider, content, needs, needsIn] at hy
      rcases hy with rfl | rfl | rfl
      · exact hb
      · exact absurd hs (by decide)
      · exact absurd hs (by decide)
  · exact C106.file_ok _ rfl

/-- **C106** In general this is not so: a new variable inside of a variable which the file has
already is set after it is used. The file is fine before, and the tree is one the editor shows. -/
theorem C106_too_late :
    DefinedBeforeUse (fun f => [f]) C106.file ∧
    Shown inputsArgNames (fun _ => False) "Inputs" (content C106.deeper) ∧
    Consistent (content C106.deeper) ∧
    setTop "Inputs" C106.deeper C106.file = .ok C106.saved ∧
    ¬DefinedBeforeUse (fun f => [f]) C106.saved := by
  refine ⟨C106.file_ok _ rfl, ?_, ?_, by decide +kernel, ?_⟩
  · simp [C106.deeper, content, Shown, ShownItems, ShownArgs, PlainAssign, inputsArgNames]
  · intro x s t
    simp [C106.deeper, content, named, namedIn]
    grind
  · intro h
    have := h [] (.assign ["A"] (.call "CALL" (.cons { key := some "x" } (.name "_b") .nil))) _ rfl
      "_b" (by simp [stmtUses, uses, usesIn]) (by decide)
    simp [Sets] at this

end PySwitch.Props
