import Verif.Lemmas.Editor

/-!
The configuration editor: what has been saved is shown again after loading, saving without a
change changes nothing, and saving touches nothing but the variables of the tree.
-/

namespace PySwitch.Props
open PySwitch.Editor PySwitch.Spec.Editor

deriving instance DecidableEq for Except

namespace C103
open PySwitch.Lemmas.Editor

theorem clearAssign_eq (d : Data) : clearAssign d = content d := by cases d <;> rfl

/-- `setTop` for a tree as shown. -/
theorem setTop_ok {argNames free top} {d : Data} (body : List Stmt)
    (h : Shown argNames free top (content d)) :
    setTop top d body =
      .ok (setAssignment top (nodeOf (content d)) none (applyAll top (named (content d)) body)) := by
  simp [setTop, clearAssign_eq, generate_ok _ body h]

/-- Setting the top variable, which exists. -/
theorem setTop_existing {value top body} (h : Sets body top) :
    setAssignment top value none body = replace top value body := by
  simp [setAssignment, (any_assigns top body).2 h]

end C103

open PySwitch.Lemmas.Editor in
/-- **C103** Saving a tree and loading the file again shows the same tree: for every file with the
variable `top` (`Inputs`, `Splashes`) which sets at most one variable per statement, and every
consistent tree as the editor shows it for the saved file. -/
theorem C103_reload_partial (argNames : String → List String) (top : String) (body : List Stmt) (d : Data)
    (hone : OneEach body) (htop : Sets body top)
    (hd : Shown argNames
      (fun x => ¬Sets body x ∧ x ∉ variables (content d)) top (content d))
    (hc : Consistent (content d)) :
    ∃ saved, setTop top d body = .ok saved ∧
      ∀ limit, (named (content d)).length ≤ limit →
        getTree argNames limit saved top = .ok (some (titled top d)) := by
  refine ⟨_, C103.setTop_ok body hd, fun limit hl => ?_⟩
  obtain ⟨a, b, c, e⟩ := applyAll_spec (named (content d)) hone htop hc
  have hst : Sets (applyAll top (named (content d)) body) top := (b top).2 (.inl htop)
  rw [C103.setTop_existing hst]
  generalize hB : replace top (nodeOf (content d)) (applyAll top (named (content d)) body) = B
  have hBtop : lookup B top = some (nodeOf (content d)) := hB ▸ lookup_replace_same hst
  have hBo : ∀ y, y ≠ top → lookup B y = lookup (applyAll top (named (content d)) body) y :=
    fun y hy => hB ▸ lookup_replace_other hy a
  have hp := parse_nodeOf (argNames := argNames) (body := B) (top := top)
    (free := fun x => ¬Sets body x ∧ x ∉ variables (content d))
    (by
      intro x hx
      have hxt : x ≠ top := fun he => hx.1 (he ▸ htop)
      rw [hBo x hxt, e x hx.2]
      exact (lookup_none ..).2 hx.1)
    (content d) limit hd (Nat.le_trans (depth_le _) hl)
    (by
      intro x s hs
      rw [hBo x (variables_plain _ hd x s hs).1]
      exact c x s hs)
  rw [← parse_eq] at hp
  simp only [getTree, hBtop, hp]
  cases d <;> simp [content, titled]
  all_goals simp_all [content, Shown]

/-- **C103** for the two functions of the editor: what has been saved as the inputs is loaded as the
inputs, and the same for the splashes. -/
theorem C103_inputs_partial (body : List Stmt) (d : Data) (hone : OneEach body) (htop : Sets body "Inputs")
    (hd : Shown inputsArgNames
      (fun x => ¬Sets body x ∧ x ∉ variables (content d)) "Inputs" (content d))
    (hc : Consistent (content d)) :
    ∃ saved, setInputs d body = .ok saved ∧
      ∀ limit, (named (content d)).length ≤ limit →
        inputs limit saved = .ok (some (titled "Inputs" d)) :=
  C103_reload_partial inputsArgNames "Inputs" body d hone htop hd hc

theorem C103_splashes_partial (body : List Stmt) (d : Data) (hone : OneEach body)
    (htop : Sets body "Splashes")
    (hd : Shown splashesArgNames
      (fun x => ¬Sets body x ∧ x ∉ variables (content d)) "Splashes" (content d))
    (hc : Consistent (content d)) :
    ∃ saved, setSplashes d body = .ok saved ∧
      ∀ limit, (named (content d)).length ≤ limit →
        splashes limit saved = .ok (some (titled "Splashes" d)) :=
  C103_reload_partial splashesArgNames "Splashes" body d hone htop hd hc

/-- In a file without the variable, which consists of simple statements only, a tree without
variables is saved at the end, and shown again. -/
theorem C103_first_partial (argNames : String → List String) (top : String) (body : List Stmt)
    (d : Data) (hs : ∀ s ∈ body, s.isSimple = true) (htop : ¬Sets body top)
    (hd : Shown argNames (fun x => ¬Sets body x ∧ x ≠ top) top (content d))
    (hn : named (content d) = []) (limit : Nat) :
    ∃ saved, setTop top d body = .ok saved ∧ saved.take body.length = body ∧
      getTree argNames limit saved top = .ok (some (titled top d)) := by
  have hset : setAssignment top (Lemmas.Editor.nodeOf (content d)) none body =
      body ++ [.assign [top] (Lemmas.Editor.nodeOf (content d))] := by
    have : ¬(body.any (Stmt.assigns top) = true) :=
      fun h => htop ((Lemmas.Editor.any_assigns ..).1 h)
    simp only [setAssignment, if_neg this, add]
    rw [if_pos (by simpa using hs)]
  refine ⟨_, C103.setTop_ok body hd, ?_⟩
  simp only [hn, Lemmas.Editor.applyAll, List.foldl_nil, hset]
  refine ⟨by simp, ?_⟩
  generalize hB : body ++ [Stmt.assign [top] (Lemmas.Editor.nodeOf (content d))] = B
  have hl : ∀ y, lookup B y = if y = top then some (Lemmas.Editor.nodeOf (content d))
      else lookup body y := by
    intro y
    subst hB
    by_cases hy : y = top
    · subst hy
      have := (Lemmas.Editor.lookup_none body y).2 htop
      simp only [lookup] at this ⊢
      rw [List.findSome?_append, this]
      simp
    · simp only [lookup, List.findSome?_append]
      simp [hy]
  have hp := Lemmas.Editor.parse_nodeOf (argNames := argNames) (body := B) (top := top)
    (free := fun x => ¬Sets body x ∧ x ≠ top)
    (by
      intro x hx
      rw [hl, if_neg hx.2]
      exact (Lemmas.Editor.lookup_none ..).2 hx.1)
    (content d) limit hd (by have := Lemmas.Editor.depth_le (content d); simp [hn] at this; omega)
    (by simp [hn])
  rw [← Lemmas.Editor.parse_eq] at hp
  simp only [getTree, hl, if_true, hp]
  cases d <;> simp [content, titled]
  all_goals simp_all [content, Shown]

/-- What is missing for all files: in a file without `Inputs` which has a function, the whole
tree is lost without notice. -/
theorem C103_lost :
    (setTop "Inputs" (.list (.cons none (.code (.other "1")) .nil)) [.block [] "def f(): ..."]).toOption
      = some [.block [] "def f(): ..."] := by decide +kernel

/-- In a file without `Inputs`, a variable of the tree is not set, and `Inputs` refers to it. -/
theorem C103_undefined :
    (setTop "Inputs" (.list (.cons none (.call "PagerAction" .nil (some "_pager")) .nil)) []).toOption
      = some [.assign ["Inputs"] (.list (.cons {} (.name "_pager") .nil))] := by decide +kernel

private def exBody : List Stmt :=
  [.imp "pyswitch.clients.kemper.actions.rig_up_down" [("RIG_UP", "RIG_UP")],
   .assign ["_deferred"] (.call "RIG_UP" (.cons ⟨some "id", ""⟩ (.other "303") .nil)),
   .assign ["Inputs"] (.list .nil)]

/-- The pager is a new variable, `_deferred` is changed, `DISPLAY_1` is imported. -/
private def exTree : Data :=
  .list (.cons none (.dict
    (.cons (some "assignment") (.code (.name "SWITCH_1"))
    (.cons (some "actions") (.list
      (.cons none (.call "RIG_UP" (.cons (some "display") (.code (.name "DISPLAY_1"))
        (.cons (some "id") (.code (.other "5")) .nil)) (some "_deferred"))
      (.cons none (.call "PagerAction" (.cons (some "pages")
        (.val (.list (.cons none (.code (.other "1")) .nil)) (some "_pages")) .nil)
          (some "_pager")) .nil)))
    .nil)) none) .nil)

example : OneEach exBody ∧ Sets exBody "Inputs" ∧ Consistent (content exTree) ∧
    Shown inputsArgNames (fun x => ¬Sets exBody x ∧ x ∉ variables (content exTree)) "Inputs"
      (content exTree) := by
  refine ⟨?_, by decide +kernel, ?_, ?_⟩
  · simp [OneEach, exBody, targets]
  · simp only [Consistent, exTree, content, named, namedIn]
    simp
    rintro x s t (⟨rfl, rfl⟩ | ⟨rfl, rfl⟩ | ⟨rfl, rfl⟩) <;> simp <;> exact Eq.symm
  · simp only [exTree, content, Shown, ShownItems, ShownElements, ShownArgs, PlainAssign]
    simp [PlainKey]
    decide +kernel

example : ((setTop "Inputs" exTree exBody).map (·.map targets)).toOption =
    some [[], ["_deferred"], ["_pages"], ["_pager"], ["Inputs"]] := by decide +kernel

namespace C104
open PySwitch.Lemmas.Editor

theorem replace_self {x value} {body : List Stmt}
    (h : ∀ ts v, Stmt.assign ts v ∈ body → x ∈ ts → v = value) : replace x value body = body := by
  rw [replace_eq]
  conv => rhs; rw [← List.map_id body]
  apply List.map_congr_left
  intro s hs
  cases s with
  | assign ts v =>
    simp only [swap, id]
    split
    · rename_i hx
      rw [h ts v hs (by simpa using hx)]
    · rfl
  | _ => rfl

theorem set_self {argNames top x n before} {body : List Stmt} (hf : PlainFile argNames top body)
    (hl : lookup body x = some n) : setAssignment x n before body = body := by
  obtain ⟨ts, hm, hx⟩ := lookup_mem hl
  have hs : Sets body x := ⟨_, hm, hx⟩
  simp only [setAssignment, (any_assigns x body).2 hs, if_true]
  exact replace_self fun ts' v hm' hx' => hf.once x ts' v ts n hm' hm hx' hx

mutual
theorem generate_parse {argNames top} {body : List Stmt} (hf : PlainFile argNames top body)
    (limit : Nat)
    (ih : ∀ x n d, lookup body x = some n →
      resolver argNames body limit x = some (.ok d) → generate top (assigned x d) body = .ok (.name x, body)) :
    ∀ (n : Node) (d : Data), Plain argNames n →
      parseWith argNames (resolver argNames body limit) n = .ok d →
      generate top d body = .ok (n, body)
  | .name x, d, _, hp => by
    simp only [parseWith] at hp
    cases hr : resolver argNames body limit x with
    | none => simp [hr] at hp; subst hp; simp [generate]
    | some r =>
      cases r with
      | error e => simp [hr] at hp
      | ok d' =>
        simp [hr] at hp; subst hp
        have : ∃ n, lookup body x = some n := by
          cases hl : lookup body x with
          | none => cases limit <;> simp [resolver, hl] at hr
          | some n => exact ⟨n, rfl⟩
        obtain ⟨n, hl⟩ := this
        exact ih x n d' hl hr
  | .other c, d, _, hp => by simp [parseWith] at hp; subst hp; simp [generate]
  | .call func args, d, hn, hp => by
    simp only [Plain] at hn
    simp only [parseWith] at hp
    split at hp
    · rename_i e he
      cases hp
      simp [generate, generate_parseArgs hf limit ih args _ e hn he, resolveAssign]
    · cases hp
  | .dict elements, d, hn, hp => by
    simp only [Plain] at hn
    simp only [parseWith] at hp
    split at hp
    · rename_i e he
      cases hp
      simp [generate, generate_parseElements hf limit ih elements e hn he, resolveAssign]
    · cases hp
  | .list items, d, hn, hp => by
    simp only [Plain] at hn
    simp only [parseWith] at hp
    split at hp
    · rename_i e he
      cases hp
      simp [generate, generate_parseItems hf limit ih items e hn he]
    · cases hp

theorem generate_parseArgs {argNames top} {body : List Stmt} (hf : PlainFile argNames top body)
    (limit : Nat)
    (ih : ∀ x n d, lookup body x = some n →
      resolver argNames body limit x = some (.ok d) → generate top (assigned x d) body = .ok (.name x, body)) :
    ∀ (n : Nodes) (names : List String) (d : Entries), PlainArgs argNames names.isEmpty n →
      parseArgs argNames (resolver argNames body limit) names n = .ok d →
      generateArgs top d body = .ok (n, body)
  | .nil, _, d, _, hp => by simp [parseArgs] at hp; subst hp; simp [generateArgs]
  | .cons label node rest, names, d, hn, hp => by
    simp only [PlainArgs] at hn
    obtain ⟨h1, h2, h3, h4, h5⟩ := hn
    obtain ⟨key, star⟩ := label
    simp at h1 h2; subst h1
    simp only [parseArgs] at hp
    split at hp
    · cases hp
    · rename_i d' hd'
      have a := generate_parse hf limit ih node d' h4 hd'
      cases key with
      | some k =>
        simp only [] at hp
        split at hp
        · rename_i r hr
          cases hp
          have b := generate_parseArgs hf limit ih rest names r h5 hr
          have : k ≠ "" := fun e => h2 (by rw [e])
          simp [generateArgs, a, b, this]
        · cases hp
      | none =>
        have : names = [] := by simpa using h3
        subst this
        simp only [] at hp
        split at hp
        · rename_i r hr
          cases hp
          have b := generate_parseArgs hf limit ih rest [] r h5 hr
          simp [generateArgs, a, b]
        · cases hp

theorem generate_parseElements {argNames top} {body : List Stmt} (hf : PlainFile argNames top body)
    (limit : Nat)
    (ih : ∀ x n d, lookup body x = some n →
      resolver argNames body limit x = some (.ok d) → generate top (assigned x d) body = .ok (.name x, body)) :
    ∀ (n : Nodes) (d : Entries), PlainElements argNames n →
      parseElements argNames (resolver argNames body limit) n = .ok d →
      generateElements top d body = .ok (n, body)
  | .nil, d, _, hp => by simp [parseElements] at hp; subst hp; simp [generateElements]
  | .cons label node rest, d, hn, hp => by
    simp only [PlainElements] at hn
    obtain ⟨⟨k, hk, rfl⟩, h4, h5⟩ := hn
    simp only [parseElements] at hp
    split at hp
    · cases hp
    · rename_i d' hd'
      have a := generate_parse hf limit ih node d' h4 hd'
      split at hp
      · rename_i r hr
        cases hp
        have b := generate_parseElements hf limit ih rest r h5 hr
        rw [stripQuotes_quote k hk]
        simp [generateElements, a, b]
      · cases hp

theorem generate_parseItems {argNames top} {body : List Stmt} (hf : PlainFile argNames top body)
    (limit : Nat)
    (ih : ∀ x n d, lookup body x = some n →
      resolver argNames body limit x = some (.ok d) → generate top (assigned x d) body = .ok (.name x, body)) :
    ∀ (n : Nodes) (d : Entries), PlainItems argNames n →
      parseItems argNames (resolver argNames body limit) n = .ok d →
      generateItems top d body = .ok (n, body)
  | .nil, d, _, hp => by simp [parseItems] at hp; subst hp; simp [generateItems]
  | .cons label node rest, d, hn, hp => by
    simp only [PlainItems] at hn
    obtain ⟨rfl, h4, h5⟩ := hn
    simp only [parseItems] at hp
    split at hp
    · cases hp
    · rename_i d' hd'
      have a := generate_parse hf limit ih node d' h4 hd'
      split at hp
      · rename_i r hr
        cases hp
        have b := generate_parseItems hf limit ih rest r h5 hr
        simp [generateItems, a, b]
      · cases hp
end

/-- The value of a variable which is used in the tree, with the variable. -/
theorem generate_assigned {argNames top} {body : List Stmt} (hf : PlainFile argNames top body)
    {l x n d} (hl : lookup body x = some n) (hne : n ≠ .list .nil)
    (hp : parse argNames body l n = .ok d) (hg : generate top d body = .ok (n, body)) :
    generate top (assigned x d) body = .ok (.name x, body) := by
  have hset := set_self (before := some top) hf hl
  obtain ⟨ts, hm, hx⟩ := lookup_mem hl
  rw [parse_eq] at hp
  cases n with
  | name y =>
    have hy : lookup body y = none := (lookup_none ..).2 (hf.noAlias ts y hm)
    have : resolver argNames body l y = none := by cases l <;> simp [resolver, hy]
    simp [parseWith, this] at hp; subst hp
    simp [assigned, generate, Data.truthy, resolveAssign, hset]
  | other c =>
    simp [parseWith] at hp; subst hp
    simp [assigned, generate, Data.truthy, resolveAssign, hset]
  | call f args =>
    simp only [parseWith] at hp
    split at hp
    · cases hp
      simp only [generate] at hg
      split at hg
      · rename_i b' he
        simp [resolveAssign] at hg
        obtain ⟨rfl, rfl⟩ := hg
        simp [assigned, generate, he, resolveAssign, hset]
      · cases hg
    · cases hp
  | dict els =>
    simp only [parseWith] at hp
    split at hp
    · cases hp
      simp only [generate] at hg
      split at hg
      · rename_i b' he
        simp [resolveAssign] at hg
        obtain ⟨rfl, rfl⟩ := hg
        simp [assigned, generate, he, resolveAssign, hset]
      · cases hg
    · cases hp
  | list items =>
    simp only [parseWith] at hp
    split at hp
    · rename_i e he
      cases hp
      have hne : items ≠ .nil := fun e => hne (by rw [e])
      have ht : (Data.list e).truthy = true := by
        cases items with
        | nil => exact absurd rfl hne
        | cons lb nd rs =>
          cases e with
          | nil =>
            simp only [parseItems] at he
            split at he
            · cases he
            · split at he <;> cases he
          | cons a b c => rfl
      simp [assigned, generate, ht] at hg ⊢
      simp [hg, resolveAssign, hset]
    · cases hp

theorem generate_all {argNames top} {body : List Stmt} (hf : PlainFile argNames top body)
    (hne : ∀ x n, lookup body x = some n → n ≠ .list .nil) :
    ∀ (limit : Nat) (n : Node) (d : Data), Plain argNames n →
      parse argNames body limit n = .ok d → generate top d body = .ok (n, body)
  | 0, n, d, hn, hp => by
    rw [parse_eq] at hp
    refine generate_parse hf 0 ?_ n d hn hp
    intro x n' d' hl hr
    simp [resolver, hl] at hr
  | l + 1, n, d, hn, hp => by
    rw [parse_eq] at hp
    refine generate_parse hf (l + 1) ?_ n d hn hp
    intro x n' d' hl hr
    simp [resolver, hl] at hr
    obtain ⟨ts, hm, _⟩ := lookup_mem hl
    exact generate_assigned hf hl (hne x n' hl) hr
      (generate_all hf hne l n' d' (hf.plain ts n' hm) hr)

/-- The parsed value of the top variable carries no variable name itself. -/
theorem parse_top {argNames top} {body : List Stmt} (hf : PlainFile argNames top body)
    {l n d} (hl : lookup body top = some n) (hp : parse argNames body l n = .ok d) :
    clearAssign d = d ∧ clearAssign (titled top d) = d ∧
      getTree argNames l body top = .ok (some (titled top d)) := by
  have hg : getTree argNames l body top = .ok (some (titled top d)) := by
    simp only [getTree, hl, hp]
    cases d <;> rfl
  obtain ⟨ts, hm, hx⟩ := lookup_mem hl
  rw [parse_eq] at hp
  refine ⟨?_, ?_, hg⟩ <;>
  · cases n with
    | name y =>
      have hy : lookup body y = none := (lookup_none ..).2 (hf.noAlias ts y hm)
      have : resolver argNames body l y = none := by cases l <;> simp [resolver, hy]
      simp [parseWith, this] at hp; subst hp; rfl
    | other c => simp [parseWith] at hp; subst hp; rfl
    | call f args =>
      simp only [parseWith] at hp
      split at hp
      · cases hp; rfl
      · cases hp
    | dict els =>
      simp only [parseWith] at hp
      split at hp
      · cases hp; rfl
      · cases hp
    | list items =>
      simp only [parseWith] at hp
      split at hp
      · cases hp; rfl
      · cases hp

end C104

/-- **C104** Saving the tree as it has been loaded leaves every statement of the file as it is:
for every file the editor can represent. -/
theorem C104_unchanged_partial (argNames : String → List String) (top : String) (limit : Nat)
    (body : List Stmt) (d : Data) (hf : PlainFile argNames top body)
    (hd : getTree argNames limit body top = .ok (some d)) :
    setTop top d body = .ok body := by
  cases hl : lookup body top with
  | none => simp [getTree, hl] at hd
  | some n =>
    cases hp : parse argNames body limit n with
    | error e => simp [getTree, hl, hp] at hd
    | ok d' =>
      obtain ⟨h1, h2, h3⟩ := C104.parse_top hf hl hp
      rw [h3] at hd
      cases hd
      obtain ⟨ts, hm, hx⟩ := Lemmas.Editor.lookup_mem hl
      have hgen : generate top d' body = .ok (n, body) := by
        by_cases hn : n = .list .nil
        · subst hn
          rw [Lemmas.Editor.parse_eq] at hp
          simp [parseWith, parseItems] at hp
          subst hp
          simp [generate, generateItems]
        · refine C104.generate_all hf ?_ limit n d' (hf.plain ts n hm) hp
          rintro x n' hl' rfl
          obtain ⟨ts', hm', _⟩ := Lemmas.Editor.lookup_mem hl'
          have := hf.nonempty ts' hm'
          subst this
          exact hn (hf.once top ts n [top] _ hm hm' hx (by simp))
      simp [setTop, h2, hgen, C104.set_self hf hl]

/-- A file with an imported action, a variable which is used in the tree, and a function. -/
private def exPlain : List Stmt :=
  [.imp "pyswitch.clients.local.actions.pager" [("PagerAction", "PagerAction")],
   .block [] "def f(): ...",
   .assign ["_w"] (.other "120"),
   .assign ["_pager"] (.call "PagerAction" (.cons ⟨some "pages", ""⟩ (.list
      (.cons ⟨none, ""⟩ (.name "_w") .nil)) .nil)),
   .assign ["Inputs"] (.list (.cons ⟨none, ""⟩ (.dict
      (.cons ⟨some "\"assignment\"", ""⟩ (.name "SWITCH_1")
      (.cons ⟨some "\"actions\"", ""⟩ (.list (.cons ⟨none, ""⟩ (.name "_pager") .nil)) .nil))) .nil))]

example : PlainFile inputsArgNames "Inputs" exPlain := by
  refine ⟨?_, ?_, ?_, ?_⟩
  · intro ts v hm
    simp [exPlain] at hm
    rcases hm with ⟨rfl, rfl⟩ | ⟨rfl, rfl⟩ | ⟨rfl, rfl⟩ <;>
      simp [Plain, PlainArgs, PlainItems, PlainElements, inputsArgNames]
    exact ⟨⟨"assignment", by simp [PlainKey], by decide⟩, ⟨"actions", by simp [PlainKey], by decide⟩⟩
  · intro x ts v ts' v' hm hm'
    simp [exPlain] at hm hm'
    rcases hm with ⟨rfl, rfl⟩ | ⟨rfl, rfl⟩ | ⟨rfl, rfl⟩ <;>
      rcases hm' with ⟨rfl, rfl⟩ | ⟨rfl, rfl⟩ | ⟨rfl, rfl⟩ <;> simp <;> rintro rfl <;> simp
  · simp [exPlain]
  · simp [exPlain]

example : ((inputs 5 exPlain).toOption.map Option.isSome) = some true := by decide +kernel

/-! What is missing in C104: files the editor does not represent. -/

/-- The star of a list element (and of an argument) is lost. -/
theorem C104_star :
    let body := [Stmt.assign ["Inputs"] (.list (.cons ⟨none, "*"⟩ (.name "more") .nil))]
    ∃ d, inputs 9 body = .ok (some d) ∧ setTop "Inputs" d body =
      .ok [.assign ["Inputs"] (.list (.cons ⟨none, ""⟩ (.name "more") .nil))] :=
  ⟨.list (.cons none (.code (.name "more")) .nil), by decide +kernel, by decide +kernel⟩

/-- Keys of dicts in single quotes get their quotes as part of the key. -/
theorem C104_single_quotes :
    let body := [Stmt.assign ["Inputs"] (.dict (.cons ⟨some "'id'", ""⟩ (.other "1") .nil))]
    ∃ d, inputs 9 body = .ok (some d) ∧ setTop "Inputs" d body =
      .ok [.assign ["Inputs"] (.dict (.cons ⟨some "\"'id'\"", ""⟩ (.other "1") .nil))] :=
  ⟨.dict (.cons (some "'id'") (.code (.other "1")) .nil) (some "Inputs"),
    by decide +kernel, by decide +kernel⟩

/-- A second name for an action gets an action of its own. -/
theorem C104_alias :
    let body := [Stmt.assign ["_pager"] (.call "PagerAction" .nil),
      .assign ["_p"] (.name "_pager"), .assign ["Inputs"] (.list (.cons ⟨none, ""⟩ (.name "_p") .nil))]
    ∃ d, inputs 9 body = .ok (some d) ∧ setTop "Inputs" d body =
      .ok [Stmt.assign ["_pager"] (.call "PagerAction" .nil),
        .assign ["_p"] (.call "PagerAction" .nil),
        .assign ["Inputs"] (.list (.cons ⟨none, ""⟩ (.name "_p") .nil))] :=
  ⟨.list (.cons none (.call "PagerAction" .nil (some "_p")) .nil),
    by decide +kernel, by decide +kernel⟩

/-- A variable which is set twice gets its first value both times. -/
theorem C104_twice :
    let body := [Stmt.assign ["_x"] (.other "1"), .assign ["_x"] (.other "2"),
      .assign ["Inputs"] (.list (.cons ⟨none, ""⟩ (.name "_x") .nil))]
    ∃ d, inputs 9 body = .ok (some d) ∧ setTop "Inputs" d body =
      .ok [Stmt.assign ["_x"] (.other "1"), .assign ["_x"] (.other "1"),
        .assign ["Inputs"] (.list (.cons ⟨none, ""⟩ (.name "_x") .nil))] :=
  ⟨.list (.cons none (.val (.code (.other "1")) (some "_x")) .nil),
    by decide +kernel, by decide +kernel⟩

/-- A file with a variable for an empty list cannot be saved at all. -/
theorem C104_empty_list :
    let body := [Stmt.assign ["_none"] (.list .nil),
      .assign ["Inputs"] (.list (.cons ⟨none, ""⟩ (.name "_none") .nil))]
    ∃ d, inputs 9 body = .ok (some d) ∧ setTop "Inputs" d body = .error .noValue :=
  ⟨.list (.cons none (.val (.list .nil) (some "_none")) .nil),
    by decide +kernel, by decide +kernel⟩

/-! ### Nothing else is touched -/

namespace C105
open PySwitch.Lemmas.Editor

theorem clearOf_iff (xs s) : clearOf xs s = true ↔ ∀ x ∈ targets s, x ∉ xs := by
  simp [clearOf]

theorem clear_set {x value before xs} {body : List Stmt} (hx : x ∈ xs) :
    (setAssignment x value before body).filter (clearOf xs) = body.filter (clearOf xs) := by
  simp only [setAssignment]
  split
  · rw [replace_eq]
    induction body with
    | nil => rfl
    | cons s body ih =>
      have hb : (body.map (swap x value)).filter (clearOf xs) = body.filter (clearOf xs) := by
        rename_i hany
        by_cases ha : body.any (Stmt.assigns x) = true
        · exact ih ha
        · congr 1
          conv => rhs; rw [← List.map_id body]
          apply List.map_congr_left
          intro t ht
          have : t.assigns x = false := by
            simp at ha; exact ha t ht
          cases t with
          | assign ts v => simp [Stmt.assigns] at this; simp [swap, this]
          | _ => rfl
      rw [List.map_cons]
      by_cases hs : clearOf xs s = true
      · have : swap x value s = s := by
          cases s with
          | assign ts v =>
            rw [clearOf_iff] at hs
            have : x ∉ ts := fun h => hs x h hx
            simp [swap, this]
          | _ => rfl
        rw [this, List.filter_cons_of_pos hs, List.filter_cons_of_pos hs, hb]
      · have hs' : ¬clearOf xs (swap x value s) = true := by
          rw [clearOf_iff] at hs ⊢; rwa [targets_swap]
        rw [List.filter_cons_of_neg hs, List.filter_cons_of_neg hs', hb]
  · rename_i hany
    clear hany
    have hnew : ¬clearOf xs (.assign [x] value) = true := by
      rw [clearOf_iff]; simp [targets, hx]
    cases before with
    | some b =>
      rw [add_some]
      induction body with
      | nil => rfl
      | cons s body ih =>
        rw [List.flatMap_cons, List.filter_append, ih]
        simp only [inserted]
        split
        · rw [List.filter_cons_of_neg hnew]
          simp only [List.filter_cons, List.filter_nil]
          split <;> simp
        · simp only [List.filter_cons, List.filter_nil]
          split <;> simp
    | none =>
      simp only [add]
      split
      · simp [List.filter_append, List.filter_cons_of_neg hnew]
      · rfl

theorem known_congr {s t body} (h : targets s = targets t) : known body s = known body t := by
  simp [known, h]

theorem places_set {x value top} {before : Option String} {body b : List Stmt}
    (hb : ((b.filter (known body)).map shape = body.map shape) ∧ ∀ y, Sets body y → Sets b y)
    (_ : before = some top ∨ before = none) :
    (((setAssignment x value before b).filter (known body)).map shape = body.map shape) ∧
      ∀ y, Sets body y → Sets (setAssignment x value before b) y := by
  obtain ⟨h1, h2⟩ := hb
  simp only [setAssignment]
  by_cases hx : Sets b x
  · rw [if_pos ((any_assigns x b).2 hx)]
    refine ⟨?_, fun y hy => sets_replace.2 (h2 y hy)⟩
    rw [← h1, replace_eq]
    clear h1 h2 hx
    induction b with
    | nil => rfl
    | cons s b ih =>
      have hk := known_congr (body := body) (targets_swap x value s)
      have hshape : shape (swap x value s) = shape s := by
        cases s with
        | assign ts v => simp only [swap]; split <;> rfl
        | _ => rfl
      simp only [List.map_cons, List.filter_cons, hk]
      split
      · simp only [List.map_cons, hshape, ih]
      · exact ih
  · rw [if_neg (fun h => hx ((any_assigns x b).1 h))]
    have hnew : ¬known body (.assign [x] value) = true := by
      simp [known, targets]
      exact fun h => hx (h2 x h)
    cases before with
    | some t =>
      refine ⟨?_, fun y hy => sets_add.2 (.inl (h2 y hy))⟩
      rw [← h1, add_some]
      clear h1 h2 hx
      induction b with
      | nil => rfl
      | cons s b ih =>
        rw [List.flatMap_cons, List.filter_append, List.map_append, ih]
        simp only [inserted]
        split
        · rw [List.filter_cons_of_neg hnew]
          simp only [List.filter_cons, List.filter_nil]
          split <;> simp
        · simp only [List.filter_cons, List.filter_nil]
          split <;> simp
    | none =>
      simp only [add]
      split
      · refine ⟨by simp [List.filter_append, List.filter_cons_of_neg hnew, h1], fun y hy => ?_⟩
        obtain ⟨s, hs, hm⟩ := h2 y hy
        exact ⟨s, by simp [hs], hm⟩
      · exact ⟨h1, h2⟩

end C105

/-- **C105** Saving changes no statement but those which set the top variable or a variable of
the tree: for every file and every tree, the other statements are the same, in the same order. -/
theorem C105_rest (top : String) (d : Data) (body saved : List Stmt)
    (h : setTop top d body = .ok saved) :
    saved.filter (clearOf (top :: variables (content d))) =
      body.filter (clearOf (top :: variables (content d))) := by
  simp only [setTop, C103.clearAssign_eq] at h
  split at h
  · cases h
  · rename_i he
    cases h
    rw [C105.clear_set (by simp)]
    refine Lemmas.Editor.generate_inv
      (P := fun b => b.filter (clearOf (top :: variables (content d))) =
        body.filter (clearOf (top :: variables (content d))))
      (xs := top :: variables (content d))
      (fun x hx v b hb => ?_) _ _ _ _ he
      (fun x s hm => List.mem_cons_of_mem _ (List.mem_map.2 ⟨_, hm, rfl⟩)) rfl
    rw [C105.clear_set hx, hb]

/-- **C105** All statements of the file stay where they are, and set the same variables: what
else the saved file has are statements which set new variables. -/
theorem C105_places (top : String) (d : Data) (body saved : List Stmt)
    (h : setTop top d body = .ok saved) :
    (saved.filter (known body)).map shape = body.map shape := by
  simp only [setTop, C103.clearAssign_eq] at h
  split at h
  · cases h
  · rename_i he
    cases h
    have h0 : body.filter (known body) = body := by
      rw [List.filter_eq_self]
      intro s hs
      simp only [known]
      cases ht : targets s with
      | nil => simp
      | cons x xs => simp; exact .inl ⟨s, hs, by simp [ht]⟩
    refine (C105.places_set (top := top) ?_ (.inr rfl)).1
    exact Lemmas.Editor.generate_inv
      (P := fun b => ((b.filter (known body)).map shape = body.map shape) ∧
        ∀ y, Sets body y → Sets b y)
      (xs := variables (content d))
      (fun x hx v b hb => C105.places_set hb (.inl rfl)) _ _ _ _ he
      (fun x s hm => List.mem_map.2 ⟨_, hm, rfl⟩) ⟨by rw [h0], fun _ h => h⟩

namespace C104

/-- The arguments of the editor for those of `callArgs`. -/
def named (l : List (String × String)) : Entries :=
  l.foldr (fun e r => .cons (some e.1) (.code (.other e.2)) r) .nil

theorem parse_kw {argNames resolve} : ∀ (kw : List (String × String)) (free : List String),
    parseArgs argNames resolve free (callArgs [] kw) = .ok (named kw)
  | [], _ => by simp [callArgs, parseArgs, named]
  | e :: kw, free => by
    have ih := parse_kw (argNames := argNames) (resolve := resolve) kw free
    simp only [callArgs, named, List.foldr_nil, List.foldr_cons] at ih ⊢
    simp [parseArgs, parseWith, ih]

theorem parse_pos {argNames resolve} : ∀ (pos free : List String) (kw : List (String × String)),
    pos.length ≤ free.length →
    parseArgs argNames resolve free (callArgs pos kw) = .ok (named (free.zip pos ++ kw))
  | [], free, kw, _ => by simpa using parse_kw kw free
  | c :: pos, [], kw, h => by simp at h
  | c :: pos, f :: free, kw, h => by
    have ih := parse_pos (argNames := argNames) (resolve := resolve) pos free kw
      (by simpa using h)
    simp only [callArgs, named, List.foldr_cons, List.zip_cons_cons, List.cons_append] at ih ⊢
    simp [parseArgs, parseWith, ih]

theorem generate_named {top} : ∀ (l : List (String × String)) (body : List Stmt),
    (∀ e ∈ l, e.1 ≠ "") → generateArgs top (named l) body = .ok (callArgs [] l, body)
  | [], body, _ => by simp [named, generateArgs, callArgs]
  | e :: l, body, h => by
    have ih := generate_named (top := top) l body (fun e he => h e (List.mem_cons_of_mem _ he))
    have he := h e (List.mem_cons_self ..)
    simp only [named, callArgs, List.foldr_cons, List.foldr_nil] at ih ⊢
    simp [generateArgs, generate, ih, he]

end C104

/-- **C104** Display bounds are commonly written without keywords. The editor shows them with the
names of the parameters, in the order the class declares them, and saves them with keywords, so
they have the same meaning as before: for all values and further arguments. -/
theorem C104_bounds (limit : Nat) (pos : List String) (kw : List (String × String))
    (hpos : pos.length ≤ 4) (hkw : ∀ e ∈ kw, e.1 ≠ "") :
    ∃ d, splashes limit [.assign ["Splashes"] (.call "DisplayBounds" (callArgs pos kw))] = .ok (some d) ∧
      setTop "Splashes" d [.assign ["Splashes"] (.call "DisplayBounds" (callArgs pos kw))] =
        .ok [.assign ["Splashes"] (.call "DisplayBounds"
          (callArgs [] (["x", "y", "w", "h"].zip pos ++ kw)))] := by
  refine ⟨.call "DisplayBounds" (C104.named (["x", "y", "w", "h"].zip pos ++ kw)) (some "Splashes"),
    ?_, ?_⟩
  · have hp : ∀ argNames resolve, parseArgs argNames resolve ["x", "y", "w", "h"] (callArgs pos kw) =
        .ok (C104.named (["x", "y", "w", "h"].zip pos ++ kw)) :=
      fun _ _ => C104.parse_pos pos _ kw hpos
    cases limit <;>
      simp [splashes, getTree, lookup, parse, parseWith, splashesArgNames, hp]
  · have hn : ∀ e ∈ ["x", "y", "w", "h"].zip pos ++ kw, e.1 ≠ "" := by
      intro e he
      rcases List.mem_append.1 he with he | he
      · have := (List.of_mem_zip he).1
        simp at this
        rcases this with h | h | h | h <;> simp [h]
      · exact hkw e he
    simp [setTop, clearAssign, generate, C104.generate_named _ _ hn, resolveAssign, setAssignment,
      Stmt.assigns, replace]

/-- A case of `C104_bounds`: `DisplayBounds(0, 40, w = 240, h = 160)`. -/
example : setTop "Splashes"
    (.call "DisplayBounds" (.cons (some "x") (.code (.other "0")) (.cons (some "y") (.code (.other "40"))
      (.cons (some "w") (.code (.other "240")) (.cons (some "h") (.code (.other "160")) .nil))))
      (some "Splashes"))
    [.assign ["Splashes"] (.call "DisplayBounds" (callArgs ["0", "40"] [("w", "240"), ("h", "160")]))] =
    .ok [.assign ["Splashes"] (.call "DisplayBounds"
      (callArgs [] [("x", "0"), ("y", "40"), ("w", "240"), ("h", "160")]))] := by decide +kernel

end PySwitch.Props
