import Verif.Lemmas.EditorInput

/-!
The configuration editor: the actions of an input are shown as they are in the source code, and saving a
changed list of actions changes this list in the source code, and nothing else.
-/

namespace PySwitch.Props
open PySwitch.Editor PySwitch.Spec.Editor

namespace C115
open PySwitch.Lemmas.Editor PySwitch.Lemmas.EditorInput

/-- What the file says about `Inputs`, as the editor reads it. -/
theorem tree_of {limit} {body : List Stmt} {ins : List InputSrc} {tree : Data}
    (hf : PlainFile inputsArgNames "Inputs" body) (hin : ∃ ts, Stmt.assign ts (source ins) ∈ body ∧ "Inputs" ∈ ts)
    (ht : inputs limit body = .ok (some tree)) :
    lookup body "Inputs" = some (source ins) ∧
    (∀ e ∈ ins, ∀ p ∈ e, PlainKey p.1 ∧ Plain inputsArgNames p.2) ∧
    (ins ≠ [] → NoEmpty body) ∧
    ∃ es, tree = .list es ∧
      parseItems inputsArgNames (resolver inputsArgNames body limit) (elems (ins.map fun e => .dict (pairs e))) = .ok es := by
  obtain ⟨ts, hm, hx⟩ := hin
  have hl : lookup body "Inputs" = some (source ins) := by
    cases hl : lookup body "Inputs" with
    | none => exact absurd ⟨_, hm, hx⟩ ((lookup_none ..).1 hl)
    | some m =>
      obtain ⟨ts', hm', hx'⟩ := lookup_mem hl
      rw [hf.once _ ts' m ts _ hm' hm hx' hx]
  refine ⟨hl, ?_, ?_, ?_⟩
  · have hp := hf.plain ts _ hm
    simp only [source, Plain, plainItems_elems] at hp
    intro e he p hpe
    have := hp (.dict (pairs e)) (List.mem_map_of_mem he)
    simp only [Plain, plainElements_pairs] at this
    exact this p hpe
  · rintro hne x n hl' rfl
    obtain ⟨ts', hm', _⟩ := lookup_mem hl'
    have := hf.nonempty ts' hm'
    subst this
    have := hf.once "Inputs" ts _ [_] _ hm hm' hx (by simp)
    cases ins with
    | nil => exact hne rfl
    | cons e r => simp [source, elems] at this
  · simp only [inputs, getTree, hl] at ht
    cases hp : parse inputsArgNames body limit (source ins) with
    | error e => simp [hp] at ht
    | ok d =>
      simp only [hp] at ht
      rw [parse_eq] at hp
      simp only [source, parseWith] at hp
      split at hp
      · rename_i es he
        cases hp
        simp at ht
        exact ⟨es, ht.symm, he⟩
      · cases hp

theorem replace_inputs (v : Node) (body : List Stmt) (h : Sets body "Inputs") :
    setAssignment "Inputs" v none body = withInputs v body := by
  rw [C103.setTop_existing h, replace_eq]
  simp only [withInputs]
  apply List.map_congr_left
  intro s _
  cases s <;> simp [swap]
  split <;> rfl

theorem findInput_pairs {body : List Stmt} {limit assignment} (hx : ¬Sets body assignment) :
    ∀ (ins : List InputSrc) (es : Entries) (e : InputSrc), (∀ e ∈ ins, ∀ p ∈ e, PlainKey p.1) →
    parseItems inputsArgNames (resolver inputsArgNames body limit) (elems (ins.map fun e => .dict (pairs e))) = .ok es →
    ins.find? (IsFor assignment ·) = some e →
    ∃ xs, findInput assignment es = some xs ∧
      parseElements inputsArgNames (resolver inputsArgNames body limit) (pairs e) = .ok xs
  | [], es, e, _, _, h => by simp at h
  | e' :: r, es, e, hk, h, hfi => by
    obtain ⟨d, es', rfl, h1, h2⟩ := parseItems_elems _ _ h
    simp only [parseWith] at h1
    split at h1
    · rename_i xs hxs
      cases h1
      have hi := isInput_pairs hx e' xs (fun p hp => hk e' (by simp) p hp) hxs
      by_cases he : IsFor assignment e'
      · simp only [List.find?_cons, decide_eq_true he] at hfi
        cases hfi
        exact ⟨xs, by simp [findInput, hi.2 he, entriesOf], hxs⟩
      · simp only [List.find?_cons, decide_eq_false he] at hfi
        have hni : ¬isInput assignment (.dict xs none) = true := fun h => he (hi.1 h)
        obtain ⟨ys, a, b⟩ := findInput_pairs hx r es' e (fun e he => hk e (List.mem_cons_of_mem _ he)) h2 hfi
        exact ⟨ys, by simp only [findInput, if_neg hni, a], b⟩
    · cases h1

/-- The shown actions, without the entries `None`. -/
theorem readActions_elems {body : List Stmt} {limit} (hf : PlainFile inputsArgNames "Inputs" body) (hne : NoEmpty body)
    (hnone : ¬Sets body "None") : ∀ (ns : List Node) (es : Entries),
    (∀ n ∈ ns, n = .name "None" ∨ Plain inputsArgNames n ∧ IsAction body n) →
    parseItems inputsArgNames (resolver inputsArgNames body limit) (elems ns) = .ok es →
    ∃ as, readActions es = .ok as ∧ as.length = (ns.filter (· ≠ .name "None")).length ∧
      ∀ (i : Nat) a n, as[i]? = some a → (ns.filter (· ≠ .name "None"))[i]? = some n → ShowsAs limit body n a
  | [], es, _, h => by
    obtain rfl := parseItems_elems _ _ h
    exact ⟨[], rfl, rfl, by simp⟩
  | n :: ns, es, hn, h => by
    obtain ⟨d, es', rfl, h1, h2⟩ := parseItems_elems _ _ h
    obtain ⟨as, p, q, r⟩ := readActions_elems hf hne hnone ns es' (fun m hm => hn m (List.mem_cons_of_mem _ hm)) h2
    have hp : parse inputsArgNames body limit n = .ok d := by rw [parse_eq]; exact h1
    have hd := parse_isName hnone hp
    by_cases hN : n = .name "None"
    · refine ⟨as, ?_, ?_, ?_⟩
      · simp [readActions, hd.2 hN, p]
      · simpa [hN] using q
      · simpa [hN] using r
    · have hdN : d ≠ .code (.name "None") := fun e => hN (hd.1 e)
      rcases hn n (by simp) with h' | ⟨hpl, hia⟩
      · exact absurd h' hN
      obtain ⟨a, _, ha, _, _⟩ := action_back hf hne limit n hpl hia d hp
      refine ⟨a :: as, by simp [readActions, hdN, ha, p], ?_, ?_⟩
      · simpa [hN] using q
      · intro i a' n' h3 h4
        rw [List.filter_cons_of_pos (by simpa using hN)] at h4
        cases i with
        | zero =>
          simp at h3 h4; subst h3 h4
          exact ⟨d, hp, ha⟩
        | succ i => exact r i a' n' (by simpa using h3) (by simpa using h4)

/-- Arguments, as shown. -/
theorem readArgs_plain {body : List Stmt} (hf : PlainFile inputsArgNames "Inputs" body) (limit : Nat) (f : String) :
    ∀ (args : List (Option String × Node)) (es : Entries),
    (∀ e ∈ args, e.1 ≠ some "" ∧ Plain inputsArgNames e.2) → (f = "PagerAction" → ∀ e ∈ args, e.1 ≠ some "pages") →
    parseArgs inputsArgNames (resolver inputsArgNames body limit) [] (kwargs args) = .ok es →
    readArgs f es = .ok (args.map fun e => (e.1, .code e.2))
  | [], es, _, _, h => by
    obtain rfl := parseArgs_kwargs _ _ h
    rfl
  | (k, v) :: r, es, hpl, hpg, h => by
    obtain ⟨d, es', rfl, h1, h2⟩ := parseArgs_kwargs _ _ h
    have a := readArgs_plain hf limit f r es' (fun e he => hpl e (List.mem_cons_of_mem _ he))
      (fun hp e he => hpg hp e (List.mem_cons_of_mem _ he)) h2
    obtain ⟨hk, hv⟩ := hpl (k, v) (by simp)
    simp only at hk hv h1
    have hkey : (k.bind fun n => if n = "" then none else some n) = k := by
      cases k with
      | none => rfl
      | some k => have : k ≠ "" := fun e => hk (by rw [e]); simp [this]
    have hpage : ¬(f = "PagerAction" ∧ k = some "pages") := fun h => hpg h.1 (k, v) (by simp) h.2
    have hp : parse inputsArgNames body limit v = .ok d := by rw [parse_eq]; exact h1
    simp only [readArgs, readArg, if_neg hpage, codeOf_all hf limit v d hv hp, a, hkey, List.map_cons]

theorem edited_self (assignment key : String) (v : Node) : ∀ (ins : List InputSrc) (e : InputSrc),
    ins.find? (IsFor assignment ·) = some e → valueOf key e = some v → edited assignment key v ins = ins
  | [], e, h, _ => by simp at h
  | e' :: r, e, h, hv => by
    by_cases he : IsFor assignment e'
    · simp only [List.find?_cons, decide_eq_true he] at h
      cases h
      have : ∀ l : InputSrc, valueOf key l = some v → withValue key v l = l := by
        intro l
        induction l with
        | nil => simp [valueOf]
        | cons p l ih =>
          obtain ⟨k, o⟩ := p
          simp only [valueOf, withValue]
          split
          · rintro h; cases h; rfl
          · intro h; rw [ih h]
      simp [edited, he, this e' hv]
    · simp only [List.find?_cons, decide_eq_false he] at h
      simp [edited, he, edited_self assignment key v r e h hv]

theorem withInputs_self {body : List Stmt} {v : Node} (hf : PlainFile inputsArgNames "Inputs" body)
    (hin : ∃ ts, Stmt.assign ts v ∈ body ∧ "Inputs" ∈ ts) : withInputs v body = body := by
  obtain ⟨ts, hm, hx⟩ := hin
  simp only [withInputs]
  conv => rhs; rw [← List.map_id body]
  apply List.map_congr_left
  intro s hs
  cases s with
  | assign ts' v' =>
    simp only [id]
    split
    · rename_i h
      rw [hf.once _ ts v ts' v' hm hs hx h]
    · rfl
  | _ => rfl

end C115

open PySwitch.Lemmas.Editor PySwitch.Lemmas.EditorInput

/-- **C115** If the actions `as` are set for an input (of a file the editor can represent) and saved, where
every action is shown for the source code of an action of the file, or new, then the source code of the
list of actions of this input is the list of their source codes, in this order, and the rest of the file
stays as it is. -/
theorem C115_saved_partial (limit : Nat) (body : List Stmt) (ins : List InputSrc) (tree : Data) (assignment : String)
    (hold : Bool) (as : List ActionDef) (ns : List Node)
    (hf : PlainFile inputsArgNames "Inputs" body)
    (hin : ∃ ts, Stmt.assign ts (source ins) ∈ body ∧ "Inputs" ∈ ts)
    (ht : inputs limit body = .ok (some tree))
    (hex : ∃ e ∈ ins, IsFor assignment e) (hx : ¬Sets body assignment)
    (hlen : as.length = ns.length)
    (has : ∀ (i : Nat) a n, as[i]? = some a → ns[i]? = some n →
      Plain inputsArgNames n ∧ IsAction body n ∧ ShowsAs limit body n a ∨ NewAs n a) :
    ∃ tree', setActions assignment hold as tree = .ok tree' ∧
      saveInputs tree' body =
        .ok (withInputs (source (edited assignment (keyOf hold) (.list (elems ns)) ins)) body) := by
  obtain ⟨hl, hpl, hne, es, rfl, he⟩ := C115.tree_of hf hin ht
  have hne := hne (by rintro rfl; simp at hex)
  have hw : ∃ items, writeActions as = .ok items ∧ generateItems "Inputs" items body = .ok (elems ns, body) := by
    refine actions_write as ns hlen ?_
    intro i a n h1 h2
    rcases has i a n h1 h2 with ⟨hn, hia, d, hd, hr⟩ | hnew
    · obtain ⟨a', d', p, q, r⟩ := action_back hf hne limit n hn hia d hd
      rw [hr] at p
      cases p
      exact ⟨d', q, r⟩
    · exact new_back hnew
  obtain ⟨items, hw, hg⟩ := hw
  have hkey : actionsKey hold = keyOf hold := rfl
  obtain ⟨⟨args, ha⟩, hgen⟩ := inputs_edit hf hne assignment (keyOf hold) hx (.list items) (.list (elems ns))
    (by simp [generate, hg]) ins es hpl he hex
  refine ⟨.list (changeInput assignment (putEntry (keyOf hold) (.list items)) es), ?_, ?_⟩
  · simp only [setActions, ha, hw, hkey]
  · obtain ⟨ts, hm, hxt⟩ := hin
    simp only [saveInputs, setInputs, setTop, clearAssign, generate, hgen,
      C115.replace_inputs _ _ (⟨_, hm, hxt⟩ : Sets body "Inputs")]
    rfl

/-- **C115** The actions of the first input for a port are shown in the order of the source code, each of
them as it is in the source code; entries `None` are left out. -/
theorem C115_shown_partial (limit : Nat) (body : List Stmt) (ins : List InputSrc) (tree : Data) (assignment : String)
    (hold : Bool) (e : InputSrc) (ns : List Node)
    (hf : PlainFile inputsArgNames "Inputs" body)
    (hin : ∃ ts, Stmt.assign ts (source ins) ∈ body ∧ "Inputs" ∈ ts)
    (ht : inputs limit body = .ok (some tree))
    (he : ins.find? (IsFor assignment ·) = some e) (hx : ¬Sets body assignment) (hnone : ¬Sets body "None")
    (hv : valueOf (keyOf hold) e = some (.list (elems ns)))
    (hns : ∀ n ∈ ns, n = .name "None" ∨ IsAction body n) :
    ∃ as, actionsOf assignment hold tree = .ok as ∧ as.length = (ns.filter (· ≠ .name "None")).length ∧
      ∀ (i : Nat) a n, as[i]? = some a → (ns.filter (· ≠ .name "None"))[i]? = some n → ShowsAs limit body n a := by
  obtain ⟨hl, hpl, hne, es, rfl, hes⟩ := C115.tree_of hf hin ht
  have hmem := List.mem_of_find?_eq_some he
  have hne := hne (by rintro rfl; simp at he)
  obtain ⟨xs, hxs, hpx⟩ := C115.findInput_pairs hx ins es e (fun e he p hp => (hpl e he p hp).1) hes he
  have hfe := findEntry_pairs (keyOf hold) e xs (fun p hp => (hpl e hmem p hp).1) hpx
  simp only [hv] at hfe
  obtain ⟨d, h1, h2⟩ := hfe
  have hplain : Plain inputsArgNames (.list (elems ns)) := by
    have : ∀ l : InputSrc, valueOf (keyOf hold) l = some (.list (elems ns)) → ∃ p ∈ l, p.2 = .list (elems ns) := by
      intro l
      induction l with
      | nil => simp [valueOf]
      | cons p l ih =>
        obtain ⟨k, o⟩ := p
        simp only [valueOf]
        split
        · rintro h; cases h; exact ⟨(k, _), by simp, rfl⟩
        · intro h; obtain ⟨q, hq, hq'⟩ := ih h; exact ⟨q, List.mem_cons_of_mem _ hq, hq'⟩
    obtain ⟨p, hp, hp2⟩ := this e hv
    rw [← hp2]
    exact (hpl e hmem p hp).2
  simp only [Plain, plainItems_elems] at hplain
  rw [parse_eq] at h2
  simp only [parseWith] at h2
  split at h2
  · rename_i items hit
    cases h2
    obtain ⟨as, p, q, r⟩ := C115.readActions_elems hf hne hnone ns items
      (fun n hn => (hns n hn).imp id fun h => ⟨hplain n hn, h⟩) hit
    refine ⟨as, ?_, q, r⟩
    have hkey : actionsKey hold = keyOf hold := rfl
    simp only [actionsOf, hxs, actionsIn, hkey, h1, p]
  · cases h2

/-- What an action is shown as: its name, its variable, and the source code of its arguments. (The pages of
a pager are shown in another form.) -/
theorem C115_shows (limit : Nat) (body : List Stmt) (n : Node) (a : ActionDef) (func : String)
    (args : List (Option String × Node)) (assign : Option String)
    (hf : PlainFile inputsArgNames "Inputs" body) (hn : Plain inputsArgNames n)
    (hpages : func = "PagerAction" → ∀ e ∈ args, e.1 ≠ some "pages")
    (hs : ShowsAs limit body n a)
    (h : assign = none ∧ n = .call func (kwargs args) ∨
      ∃ x ts, assign = some x ∧ n = .name x ∧ Stmt.assign ts (.call func (kwargs args)) ∈ body ∧ x ∈ ts) :
    a = ⟨some func, assign, args.map fun e => (e.1, .code e.2)⟩ := by
  obtain ⟨d, hd, hr⟩ := hs
  rcases h with ⟨rfl, rfl⟩ | ⟨x, ts, rfl, rfl, hm, hxt⟩
  · rw [parse_eq] at hd
    simp only [parseWith] at hd
    split at hd
    · rename_i es he
      cases hd
      have hpl : ∀ e ∈ args, e.1 ≠ some "" ∧ Plain inputsArgNames e.2 := by
        simp only [Plain, plainArgs_kwargs] at hn
        exact fun e he => ⟨(hn e he).1, (hn e he).2.2⟩
      simp [readAction, C115.readArgs_plain hf limit func args es hpl hpages he] at hr
      exact hr.symm
    · cases hd
  · have hl : lookup body x = some (.call func (kwargs args)) := by
      cases hl : lookup body x with
      | none => exact absurd ⟨_, hm, hxt⟩ ((lookup_none ..).1 hl)
      | some m =>
        obtain ⟨ts', hm', hx'⟩ := lookup_mem hl
        rw [hf.once x ts' m ts _ hm' hm hx' hxt]
    have hpl : ∀ e ∈ args, e.1 ≠ some "" ∧ Plain inputsArgNames e.2 := by
      have := hf.plain ts _ hm
      simp only [Plain, plainArgs_kwargs] at this
      exact fun e he => ⟨(this e he).1, (this e he).2.2⟩
    cases limit with
    | zero => rw [parse_eq] at hd; simp [parseWith, resolver, hl] at hd
    | succ l =>
      rw [parse_eq] at hd
      simp only [parseWith, resolver, hl, Option.map_some] at hd
      cases hq : parse inputsArgNames body l (.call func (kwargs args)) with
      | error e => simp [hq] at hd
      | ok d' =>
        simp [hq] at hd
        rw [parse_eq] at hq
        simp only [parseWith] at hq
        split at hq
        · rename_i es he
          cases hq
          rw [← hd] at hr
          simp [assigned, readAction, C115.readArgs_plain hf l func args es hpl hpages he] at hr
          exact hr.symm
        · cases hq

/-- **C115** What the editor does with drag and drop, delete and copy: if the actions of an input are read,
and any of them (`ks`: their positions) are set and saved as the actions of the same or another input,
then the source code of these actions, in this order, is the new list of actions there, and nothing else
changes. -/
theorem C115_rearranged_partial (limit : Nat) (body : List Stmt) (ins : List InputSrc) (tree : Data)
    (assignment assignment' : String) (hold hold' : Bool) (e : InputSrc) (ns : List Node) (as : List ActionDef) (ks : List Nat)
    (hf : PlainFile inputsArgNames "Inputs" body)
    (hin : ∃ ts, Stmt.assign ts (source ins) ∈ body ∧ "Inputs" ∈ ts)
    (ht : inputs limit body = .ok (some tree))
    (he : ins.find? (IsFor assignment ·) = some e) (hx : ¬Sets body assignment) (hnone : ¬Sets body "None")
    (hv : valueOf (keyOf hold) e = some (.list (elems ns)))
    (hns : ∀ n ∈ ns, n ≠ .name "None" ∧ IsAction body n)
    (has : actionsOf assignment hold tree = .ok as)
    (hex : ∃ e ∈ ins, IsFor assignment' e) (hx' : ¬Sets body assignment') :
    ∃ tree', setActions assignment' hold' (ks.filterMap (as[·]?)) tree = .ok tree' ∧
      saveInputs tree' body =
        .ok (withInputs (source (edited assignment' (keyOf hold') (.list (elems (ks.filterMap (ns[·]?)))) ins)) body) := by
  obtain ⟨as', h1, h2, h3⟩ := C115_shown_partial limit body ins tree assignment hold e ns hf hin ht he hx hnone hv
    (fun n hn => .inr (hns n hn).2)
  rw [has] at h1
  cases h1
  have hfil : ns.filter (· ≠ .name "None") = ns := List.filter_eq_self.2 fun n hn => by simpa using (hns n hn).1
  rw [hfil] at h2 h3
  have hplain : ∀ n ∈ ns, Plain inputsArgNames n := by
    obtain ⟨_, hpl, _, _⟩ := C115.tree_of hf hin ht
    have : ∀ l : InputSrc, valueOf (keyOf hold) l = some (.list (elems ns)) → ∃ p ∈ l, p.2 = .list (elems ns) := by
      intro l
      induction l with
      | nil => simp [valueOf]
      | cons p l ih =>
        obtain ⟨k, o⟩ := p
        simp only [valueOf]
        split
        · rintro h; cases h; exact ⟨(k, _), by simp, rfl⟩
        · intro h; obtain ⟨q, hq, hq'⟩ := ih h; exact ⟨q, List.mem_cons_of_mem _ hq, hq'⟩
    obtain ⟨p, hp, hp2⟩ := this e hv
    have := (hpl e (List.mem_of_find?_eq_some he) p hp).2
    rw [hp2] at this
    simpa only [Plain, plainItems_elems] using this
  refine C115_saved_partial limit body ins tree assignment' hold' _ _ hf hin ht hex hx' ?_ ?_
  · clear hex hx'
    induction ks with
    | nil => rfl
    | cons k ks ih =>
      by_cases hk : k < ns.length
      · have hk' : k < as.length := by omega
        simp [List.getElem?_eq_getElem hk, List.getElem?_eq_getElem hk', ih]
      · have hk' : ¬k < as.length := by omega
        simp only [List.filterMap_cons, List.getElem?_eq_none (Nat.le_of_not_lt hk), List.getElem?_eq_none (Nat.le_of_not_lt hk'), ih]
  · intro i a n ha hn
    left
    have : ∃ k : Nat, as[k]? = some a ∧ ns[k]? = some n := by
      clear hex hx'
      induction ks generalizing i with
      | nil => simp at ha
      | cons k ks ih =>
        by_cases hk : k < ns.length
        · have hk' : k < as.length := by omega
          simp only [List.filterMap_cons, List.getElem?_eq_getElem hk, List.getElem?_eq_getElem hk'] at ha hn
          cases i with
          | zero =>
            simp at ha hn
            exact ⟨k, by simp [hk', ha], by simp [hk, hn]⟩
          | succ i => exact ih i (by simpa using ha) (by simpa using hn)
        · have hk' : ¬k < as.length := by omega
          simp only [List.filterMap_cons, List.getElem?_eq_none (Nat.le_of_not_lt hk), List.getElem?_eq_none (Nat.le_of_not_lt hk')] at ha hn
          exact ih i ha hn
    obtain ⟨k, h4, h5⟩ := this
    have hm := List.mem_of_getElem? h5
    exact ⟨hplain n hm, (hns n hm).2, h3 k a n h4 h5⟩

/-- **C115** Setting the actions as they have been read leaves the file as it is. -/
theorem C115_unchanged_partial (limit : Nat) (body : List Stmt) (ins : List InputSrc) (tree : Data)
    (assignment : String) (hold : Bool) (e : InputSrc) (ns : List Node) (as : List ActionDef)
    (hf : PlainFile inputsArgNames "Inputs" body)
    (hin : ∃ ts, Stmt.assign ts (source ins) ∈ body ∧ "Inputs" ∈ ts)
    (ht : inputs limit body = .ok (some tree))
    (he : ins.find? (IsFor assignment ·) = some e) (hx : ¬Sets body assignment) (hnone : ¬Sets body "None")
    (hv : valueOf (keyOf hold) e = some (.list (elems ns)))
    (hns : ∀ n ∈ ns, n ≠ .name "None" ∧ IsAction body n)
    (has : actionsOf assignment hold tree = .ok as) :
    ∃ tree', setActions assignment hold as tree = .ok tree' ∧ saveInputs tree' body = .ok body := by
  have hrange : ∀ {α : Type} (l : List α), (List.range l.length).filterMap (l[·]?) = l := by
    intro α l
    apply List.ext_getElem?
    intro i
    have : (List.range l.length).filterMap (l[·]?) = l := by
      induction l with
      | nil => rfl
      | cons x l ih =>
        rw [List.length_cons, List.range_succ_eq_map, List.filterMap_cons]
        simp only [List.getElem?_cons_zero, List.filterMap_map]
        congr 1
    rw [this]
  have hfor : IsFor assignment e := by simpa using List.find?_some he
  obtain ⟨as', h1, h2, _⟩ := C115_shown_partial limit body ins tree assignment hold e ns hf hin ht he hx hnone hv
    (fun n hn => .inr (hns n hn).2)
  rw [has] at h1
  cases h1
  have hfil : ns.filter (· ≠ .name "None") = ns := List.filter_eq_self.2 fun n hn => by simpa using (hns n hn).1
  rw [hfil] at h2
  obtain ⟨tree', p, q⟩ := C115_rearranged_partial limit body ins tree assignment assignment hold hold e ns as
    (List.range ns.length) hf hin ht he hx hnone hv hns has ⟨e, List.mem_of_find?_eq_some he, hfor⟩ hx
  rw [hrange, C115.edited_self assignment (keyOf hold) _ ins e he hv, C115.withInputs_self hf hin] at q
  rw [← h2, hrange] at p
  exact ⟨tree', p, q⟩

/-- **C115** Setting an option of an input (hold time, hold repeat) changes its value in the source code,
and nothing else. -/
theorem C115_option_partial (limit : Nat) (body : List Stmt) (ins : List InputSrc) (tree : Data) (assignment key : String)
    (v : Node) (hf : PlainFile inputsArgNames "Inputs" body)
    (hin : ∃ ts, Stmt.assign ts (source ins) ∈ body ∧ "Inputs" ∈ ts)
    (ht : inputs limit body = .ok (some tree))
    (hex : ∃ e ∈ ins, IsFor assignment e) (hx : ¬Sets body assignment) :
    ∃ tree', setOption assignment key v tree = .ok tree' ∧
      saveInputs tree' body = .ok (withInputs (source (edited assignment key v ins)) body) := by
  obtain ⟨hl, hpl, hne, es, rfl, he⟩ := C115.tree_of hf hin ht
  have hne := hne (by rintro rfl; simp at hex)
  obtain ⟨⟨args, ha⟩, hgen⟩ := inputs_edit hf hne assignment key hx (.code v) v
    (by simp [generate]) ins es hpl he hex
  refine ⟨.list (changeInput assignment (putEntry key (.code v)) es), ?_, ?_⟩
  · simp only [setOption, ha]
  · obtain ⟨ts, hm, hxt⟩ := hin
    simp only [saveInputs, setInputs, setTop, clearAssign, generate, hgen,
      C115.replace_inputs _ _ (⟨_, hm, hxt⟩ : Sets body "Inputs")]
    rfl

/-! ### An example: two inputs, a pager in a variable, normal and hold actions -/

namespace C115

def exIns : List InputSrc :=
  [[("assignment", .name "SWITCH_1"),
    ("actions", .list (elems [.call "RIG_UP" (kwargs [(some "display", .name "DISPLAY_1"), (some "id", .other "5")]), .name "_pager"])),
    ("actionsHold", .list (elems [.call "BANK_UP" .nil]))],
   [("assignment", .name "SWITCH_2"), ("actions", .list (elems [.name "_pager"]))]]

def exPages : List (Node × Option Node × Option Node) :=
  [(.other "1", some (.name "Colors.RED"), none), (.other "2", none, some (.other "\"x\""))]

def exFile : List Stmt :=
  [.imp "pyswitch.clients.local.actions.pager" [("PagerAction", "PagerAction")],
   .assign ["_pager"] (.call "PagerAction" (kwargs [(some "pages", .list (elems (exPages.map pageSrc)))])),
   .assign ["Inputs"] (source exIns)]

theorem exPlain : PlainFile inputsArgNames "Inputs" exFile := by
  refine ⟨?_, ?_, ?_, ?_⟩
  · intro ts v hm
    simp [exFile] at hm
    rcases hm with ⟨rfl, rfl⟩ | ⟨rfl, rfl⟩
    · simp only [Plain, plainArgs_kwargs, inputsArgNames, exPages]
      simp [Plain, plainItems_elems, pageSrc, plainElements_pairs, PlainKey]
    · simp only [source, Plain, plainItems_elems, exIns]
      simp [Plain, plainItems_elems, plainElements_pairs, plainArgs_kwargs, PlainKey, PlainArgs, inputsArgNames]
  · intro x ts v ts' v' hm hm'
    simp [exFile] at hm hm'
    rcases hm with ⟨rfl, rfl⟩ | ⟨rfl, rfl⟩ <;>
      rcases hm' with ⟨rfl, rfl⟩ | ⟨rfl, rfl⟩ <;> simp <;> rintro rfl <;> simp
  · simp [exFile, source]
  · simp [exFile, source, exIns, elems]

theorem exActions : ∀ n ∈ [Node.call "RIG_UP" (kwargs [(some "display", .name "DISPLAY_1"), (some "id", .other "5")]), .name "_pager"],
    n ≠ .name "None" ∧ IsAction exFile n := by
  intro n hn
  simp at hn
  rcases hn with rfl | rfl
  · exact ⟨by simp, "RIG_UP", _, by simp [PagesOk], .inl rfl⟩
  · refine ⟨by simp, "PagerAction", [(some "pages", .list (elems (exPages.map pageSrc)))], ?_,
      .inr ⟨"_pager", ["_pager"], by simp, rfl, by simp [exFile], by simp⟩⟩
    intro _ v hv
    simp at hv
    exact ⟨exPages, hv⟩

end C115

example : PlainFile inputsArgNames "Inputs" C115.exFile ∧
    (∃ ts, Stmt.assign ts (source C115.exIns) ∈ C115.exFile ∧ "Inputs" ∈ ts) ∧
    ((inputs 5 C115.exFile).toOption.map Option.isSome) = some true ∧
    (∃ e ∈ C115.exIns, IsFor "SWITCH_2" e) ∧ ¬Sets C115.exFile "SWITCH_1" ∧ ¬Sets C115.exFile "SWITCH_2" ∧
    ¬Sets C115.exFile "None" ∧
    ((C115.exIns.find? (IsFor "SWITCH_1" ·)).bind (valueOf (keyOf false))) =
      some (.list (elems [.call "RIG_UP" (kwargs [(some "display", .name "DISPLAY_1"), (some "id", .other "5")]), .name "_pager"])) ∧
    ((inputs 5 C115.exFile).toOption.join.bind fun t =>
      (actionsOf "SWITCH_1" false t).toOption.map (List.map fun a => (a.name, a.assign))) =
      some [(some "RIG_UP", none), (some "PagerAction", some "_pager")] :=
  ⟨C115.exPlain, ⟨["Inputs"], by simp [C115.exFile], by simp⟩, by decide +kernel, by decide +kernel, by decide +kernel,
    by decide +kernel, by decide +kernel, by decide +kernel, by decide +kernel⟩

/-- Two new actions for the second input. -/
example : ∃ tree', setActions "SWITCH_2" false
      [⟨some "RIG_DOWN", none, [(some "display", .code (.name "DISPLAY_2"))]⟩,
       ⟨some "RIG_UP", none, [(some "display", .code (.name "DISPLAY_1")), (some "id", .code (.other "5"))]⟩]
      ((inputs 5 C115.exFile).toOption.join.getD (.code (.other ""))) = .ok tree' ∧
    saveInputs tree' C115.exFile = .ok (withInputs (source (edited "SWITCH_2" "actions"
      (.list (elems [.call "RIG_DOWN" (kwargs [(some "display", .name "DISPLAY_2")]),
        .call "RIG_UP" (kwargs [(some "display", .name "DISPLAY_1"), (some "id", .other "5")])])) C115.exIns)) C115.exFile) := by
  refine C115_saved_partial 5 C115.exFile C115.exIns _ "SWITCH_2" false _ _ C115.exPlain
    ⟨["Inputs"], by simp [C115.exFile], by simp⟩ ?_ (by decide +kernel) (by decide +kernel) rfl ?_
  · decide +kernel
  · intro i a n ha hn
    match i, ha, hn with
    | 0, ha, hn =>
      simp at ha hn
      exact .inr ⟨"RIG_DOWN", [(some "display", .name "DISPLAY_2")], by simp, by simp, hn.symm, ha.symm⟩
    | 1, ha, hn =>
      simp at ha hn
      exact .inr ⟨"RIG_UP", [(some "display", .name "DISPLAY_1"), (some "id", .other "5")], by simp, by simp, hn.symm, ha.symm⟩

/-! ### What is missing in C115 -/

namespace C115

/-- A file with one input, which has one action. -/
def one (action : Node) (more : List Stmt) : List Stmt :=
  more ++ [.assign ["Inputs"] (source [[("assignment", .name "SWITCH_1"), ("actions", .list (elems [action]))]])]

/-- The tree of a file. -/
def treeOf (body : List Stmt) : Data := (inputs 9 body).toOption.join.getD (.code (.other ""))

/-- Read the actions of the input, set them again, and save. -/
def again (body : List Stmt) : Except EditErr (List Stmt) :=
  match actionsOf "SWITCH_1" false (treeOf body) with
  | .error e => .error e
  | .ok as =>
    match setActions "SWITCH_1" false as (treeOf body) with
    | .error e => .error e
    | .ok t => saveInputs t body

end C115

/-- Pages in a variable: the action cannot be shown. -/
theorem C115_pages_variable :
    C115.again (C115.one (.call "PagerAction" (kwargs [(some "pages", .name "_pages")]))
      [.assign ["_pages"] (.list (elems [pageSrc (.other "1", none, none)]))]) = .error .type := by decide +kernel

/-- The list of actions in a variable: no action can be shown. -/
theorem C115_actions_variable :
    C115.again [.assign ["_actions"] (.list (elems [.call "RIG_UP" .nil])),
      .assign ["Inputs"] (source [[("assignment", .name "SWITCH_1"), ("actions", .name "_actions")]])] = .error .type := by
  decide +kernel

/-- An action which is another expression (or an imported action) is shown without name, and it cannot be saved again. -/
theorem C115_expression : C115.again (C115.one (.name "imported_action") []) = .error .invalid := by decide +kernel

/-- An entry `None` is removed. -/
theorem C115_none_removed : C115.again (C115.one (.name "None") []) =
    .ok [.assign ["Inputs"] (source [[("assignment", .name "SWITCH_1"), ("actions", .list (elems []))]])] := by
  decide +kernel

/-- A key of a page which the editor does not know is removed. -/
theorem C115_page_key : C115.again (C115.one (.call "PagerAction" (kwargs [(some "pages",
      .list (elems [.dict (pairs [("id", .other "1"), ("callback", .name "f")])]))])) []) =
    .ok (C115.one (.call "PagerAction" (kwargs [(some "pages", .list (elems [.dict (pairs [("id", .other "1")])]))])) []) := by
  decide +kernel

/-- A port which is given by a variable of the file is not found. -/
theorem C115_port_variable :
    actionsOf "SWITCH" false (C115.treeOf [.assign ["SWITCH"] (.name "PA_MIDICAPTAIN_SWITCH_1"),
      .assign ["Inputs"] (source [[("assignment", .name "SWITCH"), ("actions", .list (elems []))]])]) = .error .unknownInput := by
  decide +kernel

/-! ### Setting and reading in the tree, before saving -/

namespace C116

/-- Arguments which are read are those which were written. -/
theorem read_writePages : ∀ (ps : List PageDef) (ds : Entries), encodePages ps = .ok ds → decodePages ds = .ok ps
  | [], ds, h => by simp [encodePages] at h; subst h; rfl
  | p :: ps, ds, h => by
    simp only [encodePages] at h
    split at h
    · cases h
    · rename_i d hd
      split at h
      · cases h
      · rename_i ds' hds
        cases h
        have := read_writePages ps ds' hds
        obtain ⟨id, color, text⟩ := p
        simp only [encodePage] at hd
        cases id with
        | none => cases hd
        | some id =>
          cases hd
          cases color <;> cases text <;> simp [decodePages, decodePage, findEntry, this]

theorem read_writeArgs (f : String) : ∀ (args : List (Option String × ArgVal)) (es : Entries),
    (∀ e ∈ args, e.1 ≠ some "") → writeArgs f args = .ok es → readArgs f es = .ok args
  | [], es, _, h => by simp [writeArgs] at h; subst h; rfl
  | (k, v) :: r, es, hk, h => by
    simp only [writeArgs] at h
    split at h
    · cases h
    · rename_i d hd
      split at h
      · cases h
      · rename_i es' hes
        cases h
        have ih := read_writeArgs f r es' (fun e he => hk e (List.mem_cons_of_mem _ he)) hes
        have hkey : (k.bind fun n => if n = "" then none else some n) = k := by
          cases k with
          | none => rfl
          | some k => have : k ≠ "" := fun e => hk (some k, v) (by simp) (by rw [e]); simp [this]
        have : readArg f k d = .ok v := by
          simp only [writeArg] at hd
          by_cases hp : f = "PagerAction" ∧ k = some "pages"
          · simp only [if_pos hp] at hd
            cases v with
            | code n => cases hd
            | pages ps =>
              simp only at hd
              split at hd
              · rename_i ds hds
                cases hd
                simp [readArg, hp, read_writePages ps ds hds]
              · cases hd
          · simp only [if_neg hp] at hd
            cases v with
            | code n => cases hd; simp [readArg, if_neg hp, codeOf]
            | pages ps => cases hd
        simp [readArgs, this, ih, hkey]

theorem read_writeActions : ∀ (as : List ActionDef) (es : Entries), (∀ a ∈ as, ProperAction a) →
    writeActions as = .ok es → readActions es = .ok as
  | [], es, _, h => by simp [writeActions] at h; subst h; rfl
  | a :: as, es, ha, h => by
    simp only [writeActions] at h
    split at h
    · cases h
    · rename_i d hd
      split at h
      · cases h
      · rename_i es' hes
        cases h
        have ih := read_writeActions as es' (fun a h => ha a (List.mem_cons_of_mem _ h)) hes
        obtain ⟨h1, h2⟩ := ha a (by simp)
        obtain ⟨name, assign, args⟩ := a
        simp only at h1 h2
        simp only [writeAction] at hd
        cases name with
        | none => cases hd
        | some name =>
          simp only at hd
          split at hd
          · rename_i ws hw
            cases hd
            have hasg : (assign.bind fun x => if x = "" then none else some x) = assign := by
              cases assign with
              | none => rfl
              | some x => have : x ≠ "" := fun e => h1 (by rw [e]); simp [this]
            simp [readActions, readAction, read_writeArgs name args ws h2 hw, ih, hasg]
          · cases hd

theorem encode_ids : ∀ ps : List PageDef, (∀ p ∈ ps, p.id ≠ none) → ∃ ds, encodePages ps = .ok ds
  | [], _ => ⟨.nil, rfl⟩
  | p :: ps, hid => by
    obtain ⟨ds, hds⟩ := encode_ids ps fun q hq => hid q (List.mem_cons_of_mem _ hq)
    cases hpi : p.id with
    | none => exact absurd hpi (hid p (by simp))
    | some id => simp [encodePages, encodePage, hpi, hds]

theorem find_put (k k' : String) (d : Data) : ∀ es : Entries,
    findEntry k' (putEntry k d es) = if k' = k then some d else findEntry k' es
  | .nil => by simp only [putEntry, findEntry]; grind
  | .cons n v r => by
    simp only [putEntry]
    have := find_put k k' d r
    split
    · simp only [findEntry]; grind
    · simp only [findEntry, this]; grind

theorem isInput_change (assignment' : String) (k : String) (d : Data) (hk : k ≠ "assignment") (x : Data) :
    isInput assignment' (changeArgs (putEntry k d) x) = isInput assignment' x := by
  cases x <;> simp [changeArgs, isInput, entriesOf, find_put, hk.symm]

theorem findInput_change (assignment assignment' k : String) (d : Data) (hk : k ≠ "assignment") : ∀ es : Entries,
    findInput assignment' (changeInput assignment (putEntry k d) es) =
      if assignment' = assignment then (findInput assignment' es).map (putEntry k d) else findInput assignment' es
  | .nil => by simp [changeInput, findInput]
  | .cons n v r => by
    have ih := findInput_change assignment assignment' k d hk r
    have hi := isInput_change assignment' k d hk v
    simp only [changeInput]
    by_cases hv : isInput assignment v = true
    · simp only [if_pos hv, findInput]
      rw [hi]
      by_cases ha : assignment' = assignment
      · subst ha
        simp only [hv, if_true]
        cases v <;> simp [changeArgs, entriesOf] <;> simp [isInput, entriesOf] at hv
      · have : ¬isInput assignment' v = true := by
          intro h'
          simp only [isInput] at hv h'
          cases he : entriesOf v with
          | none => simp [he] at hv
          | some es =>
            simp [he] at hv h'
            rw [hv] at h'
            simp at h'
            exact ha h'.symm
        simp [this, ha]
    · simp only [if_neg hv, findInput, ih]
      by_cases ha : assignment' = assignment
      · subst ha; simp [hv]
      · simp [ha]

end C116

/-- **C116** After setting the actions of an input, exactly they are read, in this order. -/
theorem C116_read_back (assignment : String) (hold : Bool) (as : List ActionDef) (tree tree' : Data)
    (has : ∀ a ∈ as, ProperAction a) (h : setActions assignment hold as tree = .ok tree') :
    actionsOf assignment hold tree' = .ok as := by
  cases tree <;> simp only [setActions] at h <;> try cases h
  split at h
  · cases h
  · rename_i es hf
    split at h
    · cases h
    · rename_i items hw
      cases h
      have hk : actionsKey hold ≠ "assignment" := by cases hold <;> decide
      simp [actionsOf, C116.findInput_change _ _ _ _ hk, hf, actionsIn, C116.find_put,
        C116.read_writeActions as items has hw]

/-- **C116** All other lists of actions, of this and the other inputs, stay as they are. -/
theorem C116_others (assignment assignment' : String) (hold hold' : Bool) (as : List ActionDef) (tree tree' : Data)
    (hne : assignment' ≠ assignment ∨ hold' ≠ hold) (h : setActions assignment hold as tree = .ok tree') :
    actionsOf assignment' hold' tree' = actionsOf assignment' hold' tree := by
  cases tree <;> simp only [setActions] at h <;> try cases h
  split at h
  · cases h
  · rename_i es hf
    split at h
    · cases h
    · rename_i items hw
      cases h
      have hk : actionsKey hold ≠ "assignment" := by cases hold <;> decide
      simp only [actionsOf, C116.findInput_change _ _ _ _ hk]
      by_cases ha : assignment' = assignment
      · have hh : actionsKey hold' ≠ actionsKey hold := by
          rcases hne with h | h
          · exact absurd ha h
          · cases hold <;> cases hold' <;> simp [actionsKey] at h ⊢
        subst ha
        simp [hf, actionsIn, C116.find_put, hh]
      · simp [ha]

/-- **C116** Every action which is read from a file and which has a name can be set again. -/
theorem C116_writable (d : Data) (a : ActionDef) (h : readAction d = .ok a) (hn : a.name ≠ none)
    (hp : ∀ k ps, (k, ArgVal.pages ps) ∈ a.args → ∀ p ∈ ps, p.id ≠ none) : ∃ d', writeAction a = .ok d' := by
  have hargs : ∀ (f : String) (es : Entries) vs, readArgs f es = .ok vs →
      (∀ k ps, (k, ArgVal.pages ps) ∈ vs → ∀ p ∈ ps, p.id ≠ none) → ∃ ws, writeArgs f vs = .ok ws := by
    intro f es vs
    induction vs generalizing es with
    | nil => intro _ _; exact ⟨.nil, rfl⟩
    | cons e vs ih =>
      intro hr hp
      obtain ⟨k', v⟩ := e
      cases es with
      | nil => cases hr
      | cons k d r =>
        simp only [readArgs] at hr
        split at hr
        · cases hr
        · rename_i v' hv
          split at hr
          · cases hr
          · rename_i vs' hvs
            cases hr
            obtain ⟨ws, hw⟩ := ih r hvs (fun k ps hm => hp k ps (List.mem_cons_of_mem _ hm))
            have hk : (k.bind fun n => if n = "" then none else some n) = some "pages" ↔ k = some "pages" := by
              cases k with
              | none => simp
              | some k => simp only [Option.bind_some]; split <;> simp_all
            have : ∃ d', writeArg f (k.bind fun n => if n = "" then none else some n) v = .ok d' := by
              simp only [readArg] at hv
              simp only [writeArg, hk]
              by_cases hpg : f = "PagerAction" ∧ k = some "pages"
              · simp only [if_pos hpg] at hv ⊢
                split at hv
                · split at hv
                  · rename_i ps _
                    cases hv
                    have hid := hp _ ps (List.mem_cons_self ..)
                    clear hp
                    obtain ⟨ds, hds⟩ := C116.encode_ids ps hid
                    exact ⟨.list ds, by simp [hds]⟩
                  · cases hv
                · cases hv
              · simp only [if_neg hpg] at hv ⊢
                split at hv
                · cases hv; exact ⟨_, rfl⟩
                · cases hv
            obtain ⟨d', hd'⟩ := this
            exact ⟨_, by simp only [writeArgs, hd', hw]; rfl⟩
  cases d with
  | call name es assign =>
    simp only [readAction] at h
    split at h
    · rename_i vs hvs
      cases h
      obtain ⟨ws, hw⟩ := hargs name es vs hvs hp
      exact ⟨_, by simp only [writeAction, hw]; rfl⟩
    · cases h
  | dict es assign =>
    simp only [readAction] at h
    split at h
    · cases h; exact absurd rfl hn
    · cases h
  | val v x => cases h; exact absurd rfl hn
  | code n => cases h; exact absurd rfl hn
  | list l => cases h; exact absurd rfl hn

example : ∃ a, readAction (.call "PagerAction" (.cons (some "pages") (.list (.cons none (.dict (.cons (some "id") (.code (.other "1")) .nil) none) .nil)) .nil)
      (some "_p")) = .ok a ∧ a.name ≠ none ∧ ∀ k ps, (k, ArgVal.pages ps) ∈ a.args → ∀ p ∈ ps, p.id ≠ none :=
  ⟨⟨some "PagerAction", some "_p", [(some "pages", .pages [⟨some (.code (.other "1")), none, none⟩])]⟩, by decide +kernel, by simp,
    by rintro k ps h p hp; simp at h; obtain ⟨_, rfl⟩ := h; simp at hp; simp [hp]⟩

example : (∀ a ∈ [ActionDef.mk (some "PagerAction") (some "_p") [(some "pages", .pages [⟨some (.code (.other "1")), none, some (.code (.other "\"x\""))⟩])],
      ActionDef.mk (some "RIG_UP") none [(none, .code (.other "1"))]], ProperAction a) ∧
    ((setActions "SWITCH_2" true
      [ActionDef.mk (some "PagerAction") (some "_p") [(some "pages", .pages [⟨some (.code (.other "1")), none, some (.code (.other "\"x\""))⟩])],
       ActionDef.mk (some "RIG_UP") none [(none, .code (.other "1"))]] (C115.treeOf C115.exFile)).toOption.isSome) = true := by
  refine ⟨by simp [ProperAction], by decide +kernel⟩

/-- **C116** An input as the program holds it, with its buffered lists: whatever has been read and set on
it, the normal actions which are read are those which were set last (or those of the file). -/
theorem C116_buffered_partial (h : Handle) (ops : List HandleOp) (h' : Handle) (as : List ActionDef) (h'' : Handle)
    (h0 : h.actions = none) (hr : Handle.run h ops = .ok h') (hg : h'.get false = .ok (as, h'')) :
    actionsIn h'.args false = .ok as := by
  have inv : ∀ (ops : List HandleOp) (h : Handle), (∀ l, h.actions = some l → actionsIn h.args false = .ok l) →
      Handle.run h ops = .ok h' → ∀ l, h'.actions = some l → actionsIn h'.args false = .ok l := by
    intro ops
    induction ops with
    | nil => intro h hi hr; simp [Handle.run] at hr; subst hr; exact hi
    | cons op ops ih =>
      intro h hi hr
      simp only [Handle.run] at hr
      split at hr
      · cases hr
      · rename_i h1 hs
        refine ih h1 ?_ hr
        cases op with
        | read hold =>
          simp only [Handle.step] at hs
          cases hgt : h.get hold with
          | error e => simp [hgt, Except.map] at hs
          | ok r =>
            simp [hgt, Except.map] at hs
            subst hs
            simp only [Handle.get] at hgt
            split at hgt
            · cases hgt; exact hi
            · split at hgt
              · cases hgt; exact hi
              · split at hgt
                · cases hgt
                · rename_i l hl
                  cases hgt
                  cases hold with
                  | true => simpa using hi
                  | false => simp; exact hl
        | write hold as =>
          simp only [Handle.step, Handle.set] at hs
          split at hs
          · cases hs
          · cases hs; simp
  have hi := inv ops h (by simp [h0]) hr
  simp only [Handle.get] at hg
  split at hg
  · rename_i l hl
    cases hg
    exact hi _ (by simpa using hl)
  · split at hg
    · rename_i hf
      cases hg
      simp [actionsIn, hf]
    · split at hg
      · cases hg
      · rename_i l hl
        cases hg
        exact hl

example : (Handle.run ⟨.nil, none, none⟩ [.read false, .write false [⟨some "A", none, []⟩], .read false,
    .write true [⟨some "B", none, []⟩]]).toOption.isSome = true := by decide +kernel

/-- What is missing: hold actions which have been read before are not those which are read after setting
others. -/
theorem C116_stale_hold :
    let h : Handle := ⟨.cons (some "actionsHold") (.list (.cons none (.call "A" .nil none) .nil)) .nil, none, none⟩
    ∃ h' : Handle, Handle.run h [.read true, .write true [⟨some "B", none, []⟩]] = .ok h' ∧
      (h'.get true).toOption.map (·.1) = some [⟨some "A", none, []⟩] ∧
      actionsIn h'.args true = .ok [⟨some "B", none, []⟩] := by
  refine ⟨⟨.cons (some "actionsHold") (.list (.cons none (.call "B" .nil none) .nil)) .nil, none, some [⟨some "A", none, []⟩]⟩, ?_, ?_, ?_⟩ <;>
    decide +kernel

end PySwitch.Props
