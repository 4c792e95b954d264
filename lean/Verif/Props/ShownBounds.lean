import Verif.Model.ShownBounds
import Verif.Spec.ShownBounds
import Verif.Lemmas.PropertiesNames
/-! C200: the bounds in the display editor. -/

namespace PySwitch.Props
open PySwitch PySwitch.ShownBounds PySwitch.Spec.ShownBounds
open PySwitch.Editor (Node Nodes Data Entries Stmt Label Err lookup parse parseWith parseArgs splashesArgNames assigned)
open PySwitch.Properties (Text parseInt)

namespace C200

/-- The data of an expression is this number. -/
def Is (d : Data) (n : Int) : Prop := (resolve d).bind parseInt = some n

theorem toString_nat (n : Nat) : (toString n).toList = Nat.toDigits 10 n := Properties.intText_nat n

theorem parse_literal (n : Nat) : parseInt (toString n).toList = some (n : Int) := Properties.parseInt_nat n

theorem parse_negative (n : Nat) : parseInt ("-" ++ toString n).toList = some (-(n : Int)) := by
  have h : ("-" ++ toString n).toList = '-' :: (toString n).toList := by rw [String.toList_append]; rfl
  rw [h, toString_nat]
  unfold parseInt
  rw [List.dropWhile_cons, if_neg (by decide)]
  simp only [Properties.parseNat_digits]
  rfl

theorem is_assigned (x : String) (d : Data) (n : Int) (h : Is d n) : Is (assigned x d) n := by
  cases d <;> exact h

theorem lookup_of (body : List Stmt) (name : String) (e : Node) (ha : Assigns body name e) (hu : ∀ f, Assigns body name f → f = e) : lookup body name = some e := by
  unfold lookup
  cases h : body.findSome? (fun | .assign targets value => if targets.contains name then some value else none | _ => none) with
  | none =>
    obtain ⟨ts, hm, hx⟩ := ha
    have := List.findSome?_eq_none_iff.mp h _ hm
    simp [hx] at this
  | some f =>
    obtain ⟨s, hs, hf⟩ := List.exists_of_findSome?_eq_some h
    split at hf
    · rename_i ts v
      split at hf
      · rename_i hc
        obtain rfl := Option.some.inj hf
        rw [hu v ⟨ts, hs, by simpa using hc⟩]
      · cases hf
    · cases hf

/-- How names are resolved. -/
def names (body : List Stmt) (limit : Nat) : String → Option (Except Err Data) :=
  match limit with
  | 0 => fun x => (lookup body x).map fun _ => .error .recursion
  | l + 1 => fun x => (lookup body x).map (parse splashesArgNames body l)

theorem parse_eq (body : List Stmt) (limit : Nat) (n : Node) : parse splashesArgNames body limit n = parseWith splashesArgNames (names body limit) n := by
  cases limit <;> rfl

theorem number_parse (body : List Stmt) (d : Nat) (e : Node) (n : Int) (h : Number body d e n) :
    ∀ limit, d ≤ limit → ∃ t, parse splashesArgNames body limit e = .ok t ∧ Is t n := by
  induction h with
  | literal d n =>
    intro limit _
    refine ⟨.code (.other (toString n)), by rw [parse_eq, parseWith], ?_⟩
    show parseInt (toString n).toList = _
    exact parse_literal n
  | negative d n =>
    intro limit _
    refine ⟨.code (.other ("-" ++ toString n)), by rw [parse_eq, parseWith], ?_⟩
    show parseInt ("-" ++ toString n).toList = _
    exact parse_negative n
  | const d e n _ ih =>
    intro limit hl
    obtain ⟨t, ht, hi⟩ := ih limit hl
    rw [parse_eq] at ht
    refine ⟨.call "const" (.cons none t .nil) none, ?_, ?_⟩
    · rw [parse_eq, parseWith, parseArgs, ht]
      have : splashesArgNames "const" = [] := by decide +kernel
      rw [this]
      simp only [parseArgs]
      rfl
    · unfold Is
      rw [resolve, if_pos rfl, resolveFirst]
      exact hi
  | var d name e n ha hu _ ih =>
    intro limit hl
    obtain ⟨l, rfl⟩ : ∃ l, limit = l + 1 := ⟨limit - 1, by omega⟩
    obtain ⟨t, ht, hi⟩ := ih l (by omega)
    refine ⟨assigned name t, ?_, is_assigned name t n hi⟩
    rw [parse_eq, parseWith]
    have : names body (l + 1) name = some (.ok t) := by
      show (lookup body name).map (parse splashesArgNames body l) = _
      rw [lookup_of body name e ha hu, Option.map_some, ht]
    rw [this]

/-- The parsed arguments: by the names which are still free, then by their own names. -/
theorem args_parse (body : List Stmt) (d limit : Nat) (hl : d ≤ limit) : ∀ (pos : List Node) (named : List (String × Node)) (free : List String), Numbers body d pos named →
    ∃ es, parseArgs splashesArgNames (names body limit) free (arguments pos named) = .ok es ∧
      ∀ p : String, p ∉ free.take pos.length ∨ p ∉ named.map (·.1) → free.Nodup → (named.map (·.1)).Nodup → pos.length ≤ free.length →
        (∀ (i : Nat) e, free[i]? = some p → pos[i]? = some e → ∀ n, Number body d e n → ∃ t, getArgument p es = some t ∧ Is t n) ∧
        (∀ e, (p, e) ∈ named → p ∉ free.take pos.length → ∀ n, Number body d e n → ∃ t, getArgument p es = some t ∧ Is t n) ∧
        (p ∉ free.take pos.length → p ∉ named.map (·.1) → getArgument p es = none)
  | [], [], free, _ => ⟨.nil, by rw [arguments, keywords, parseArgs], fun p _ _ _ _ => ⟨by simp, by simp, fun _ _ => rfl⟩⟩
  | [], (k, e) :: named, free, hn => by
    obtain ⟨m, hm⟩ := hn.2 (k, e) (List.mem_cons_self ..)
    obtain ⟨t, ht, hi⟩ := number_parse body d e m hm limit hl
    rw [parse_eq] at ht
    obtain ⟨es, hes, hp⟩ := args_parse body d limit hl [] named free ⟨by simp, fun q hq => hn.2 q (List.mem_cons_of_mem _ hq)⟩
    rw [arguments] at hes
    refine ⟨.cons (some k) t es, by rw [arguments, keywords, parseArgs, ht]; simp only [hes], ?_⟩
    intro p hpn hf hnd hlen
    rw [List.map_cons, List.nodup_cons] at hnd
    obtain ⟨_, h2, h3⟩ := hp p (.inl (by simp)) hf hnd.2 (by simp)
    refine ⟨by simp, ?_, ?_⟩
    · intro f hfm _ n hnum
      rcases List.mem_cons.mp hfm with h | h
      · obtain ⟨rfl, rfl⟩ := Prod.mk.inj h
        obtain ⟨t', ht', hi'⟩ := number_parse body d f n hnum limit hl
        rw [parse_eq, ht] at ht'
        obtain rfl := Except.ok.inj ht'
        exact ⟨t, by rw [getArgument, if_pos rfl], hi'⟩
      · obtain ⟨t', ht', hi'⟩ := h2 f h (by simp) n hnum
        refine ⟨t', ?_, hi'⟩
        rw [getArgument, if_neg, ht']
        intro heq
        exact hnd.1 (List.mem_map.mpr ⟨(p, f), h, (Option.some.inj heq).symm⟩)
    · intro _ hno
      rw [List.map_cons, List.mem_cons, not_or] at hno
      rw [getArgument, if_neg, h3 (by simp) hno.2]
      intro heq
      exact hno.1 (Option.some.inj heq).symm
  | e :: pos, named, free, hn => by
    obtain ⟨m, hm⟩ := hn.1 e (List.mem_cons_self ..)
    obtain ⟨t, ht, hi⟩ := number_parse body d e m hm limit hl
    rw [parse_eq] at ht
    obtain ⟨es, hes, hp⟩ := args_parse body d limit hl pos named free.tail ⟨fun q hq => hn.1 q (List.mem_cons_of_mem _ hq), hn.2⟩
    refine ⟨.cons free.head? t es, by rw [arguments, parseArgs, ht]; simp only [hes], ?_⟩
    intro p hpn hf hnd hlen
    cases free with
    | nil => simp at hlen
    | cons a free =>
      rw [List.nodup_cons] at hf
      simp only [List.length_cons, List.take_succ_cons, List.mem_cons, not_or] at hpn hlen ⊢
      have hpn' : p ∉ free.take pos.length ∨ p ∉ named.map (·.1) := hpn.imp (fun h => h.2) id
      obtain ⟨h1, h2, h3⟩ := hp p hpn' hf.2 hnd (by simpa using hlen)
      simp only [List.head?_cons, List.tail_cons] at h1 h2 h3 ⊢
      refine ⟨?_, ?_, ?_⟩
      · intro i f hi1 hi2 n hnum
        cases i with
        | zero =>
          simp only [List.getElem?_cons_zero, Option.some.injEq] at hi1 hi2
          subst hi1 hi2
          obtain ⟨t', ht', hi'⟩ := number_parse body d e n hnum limit hl
          rw [parse_eq, ht] at ht'
          obtain rfl := Except.ok.inj ht'
          exact ⟨t, by rw [getArgument, if_pos rfl], hi'⟩
        | succ i =>
          simp only [List.getElem?_cons_succ] at hi1 hi2
          obtain ⟨t', ht', hi'⟩ := h1 i f hi1 hi2 n hnum
          refine ⟨t', ?_, hi'⟩
          rw [getArgument, if_neg, ht']
          intro heq
          exact hf.1 ((Option.some.inj heq) ▸ List.mem_of_getElem? hi1)
      · intro f hfm hno n hnum
        obtain ⟨t', ht', hi'⟩ := h2 f hfm hno.2 n hnum
        refine ⟨t', ?_, hi'⟩
        rw [getArgument, if_neg, ht']
        intro heq
        exact hno.1 (Option.some.inj heq).symm
      · intro hno hno2
        rw [getArgument, if_neg, h3 hno.2 hno2]
        intro heq
        exact hno.1 (Option.some.inj heq).symm

end C200

/-- C200: for bounds in which all arguments are whole numbers (written as such, as constants, or in variables which are assigned once), by position or by name, the editor shows the values which the device
uses. Missing: calculations (`C200_calculation_witness`), variables which are assigned several times (`C200_twice_witness`). -/
theorem C200_bounds_partial (body : List Stmt) (d limit : Nat) (hlim : d ≤ limit) (pos : List Node) (named : List (String × Node)) (hl : Legal pos named) (hn : Numbers body d pos named)
    (x y w h : Int) (hx : Value body d pos named "x" x) (hy : Value body d pos named "y" y) (hw : Value body d pos named "w" w) (hh : Value body d pos named "h" h) :
    shownBounds limit body (.call "DisplayBounds" (arguments pos named)) = some ⟨some x, some y, some w, some h⟩ := by
  obtain ⟨es, hes, hp⟩ := C200.args_parse body d limit hlim pos named parameters hn
  have hparams : splashesArgNames "DisplayBounds" = parameters := by decide +kernel
  have hnd : parameters.Nodup := by decide +kernel
  have hdim : ∀ p n, p ∈ parameters → Value body d pos named p n → getDim es p = some n := by
    intro p n hpm hv
    have hdis : p ∉ parameters.take pos.length ∨ p ∉ named.map (·.1) := by
      by_cases hm : p ∈ named.map (·.1)
      · left
        intro ht
        have h2 := hl.2.2 p hm
        have hsplit := List.take_append_drop pos.length parameters
        rw [← hsplit, List.nodup_append] at hnd
        exact hnd.2.2 p ht p h2 rfl
      · exact .inr hm
    obtain ⟨h1, h2, h3⟩ := hp p hdis hnd hl.2.1 hl.1
    have found : (∃ t, getArgument p es = some t ∧ C200.Is t n) → getDim es p = some n := by
      rintro ⟨t, ht, hi⟩
      unfold getDim
      rw [ht]
      exact hi
    rcases hv with ⟨i, e, hi1, hi2, hnum⟩ | ⟨e, he, hnum⟩ | ⟨hno, hno2, rfl⟩
    · exact found (h1 i e hi1 hi2 n hnum)
    · refine found (h2 e he ?_ n hnum)
      rcases hdis with h | h
      · exact h
      · exact absurd (List.mem_map.mpr ⟨(p, e), he, rfl⟩) h
    · unfold getDim
      rw [h3 ?_ hno2]
      intro ht
      obtain ⟨i, hi, hget⟩ := List.mem_take_iff_getElem.mp ht
      have hlt : i < parameters.length := by omega
      have := hno i (by rw [List.getElem?_eq_getElem hlt, hget])
      rw [List.getElem?_eq_none_iff] at this
      omega
  unfold shownBounds
  rw [C200.parse_eq, parseWith, hparams, hes]
  simp only [getModelBounds]
  rw [hdim "x" x (by decide) hx, hdim "y" y (by decide) hy, hdim "w" w (by decide) hw, hdim "h" h (by decide) hh]

/-! ### Cases -/

/-- As in `content/display.py:17-29, 47-54`. -/
def c200Body : List Stmt := [.simple "from micropython import const", .assign ["_SLOT_WIDTH"] (.call "const" (.cons {} (.other "120") .nil)), .assign ["_HALF"] (.name "_SLOT_WIDTH")]

example : shownBounds 100 c200Body (.call "DisplayBounds" (arguments [.name "_HALF", .other "-5"] [("h", .other "40")])) = some ⟨some 120, some (-5), some 0, some 40⟩ := by decide +kernel

/-- The second variable is a number. -/
example : Number c200Body 2 (.name "_HALF") 120 := by
  have hs : ∀ f, Assigns c200Body "_SLOT_WIDTH" f → f = .call "const" (.cons {} (.other "120") .nil) := by
    rintro f ⟨ts, hm, hx⟩
    simp only [c200Body, List.mem_cons, List.not_mem_nil, or_false, reduceCtorEq, false_or, Stmt.assign.injEq] at hm
    rcases hm with ⟨rfl, rfl⟩ | ⟨rfl, rfl⟩
    · rfl
    · simp at hx
  have hh : ∀ f, Assigns c200Body "_HALF" f → f = .name "_SLOT_WIDTH" := by
    rintro f ⟨ts, hm, hx⟩
    simp only [c200Body, List.mem_cons, List.not_mem_nil, or_false, reduceCtorEq, false_or, Stmt.assign.injEq] at hm
    rcases hm with ⟨rfl, rfl⟩ | ⟨rfl, rfl⟩
    · simp at hx
    · rfl
  exact .var 1 _ _ _ ⟨["_HALF"], by simp [c200Body], by simp⟩ hh
    (.var 0 _ _ _ ⟨["_SLOT_WIDTH"], by simp [c200Body], by simp⟩ hs (.const 0 _ _ (.literal 0 120)))

/-- C200 fails for calculations: only the number at the beginning is read. -/
theorem C200_calculation_witness :
    shownBounds 100 c200Body (.call "DisplayBounds" (arguments [.other "240 - 40", .other "(20)", .other "2 * _SLOT_WIDTH", .call "int" (.cons {} (.other "20") .nil)] [])) =
      some ⟨some 240, none, some 2, none⟩ := by decide +kernel

/-- C200 fails for variables which are assigned several times: the first value is shown, the device uses the last one. -/
theorem C200_twice_witness :
    shownBounds 100 [.assign ["W"] (.other "120"), .assign ["W"] (.other "60")] (.call "DisplayBounds" (arguments [] [("w", .name "W")])) = some ⟨some 0, some 0, some 120, some 0⟩ := by
  decide +kernel

end PySwitch.Props
