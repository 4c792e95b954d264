import Verif.Spec.MappingNames
import Verif.Lemmas.PropertiesNames
/-!
C203: the names shown for actions on parameters tell which parameter it is.
-/
namespace PySwitch.Props
open PySwitch.MappingNames
open PySwitch.Properties (Text lit)

namespace C203
open Spec

/-- The reading of a shown text. -/
def read (t : Text) : Text := t.map (fun c => if c = ' ' then '_' else c.toUpper)

theorem read_append (a b : Text) : read (a ++ b) = read a ++ read b := List.map_append

/-- Parts joined with underscores. -/
def unsplit : List Text → Text
  | [] => []
  | [t] => t
  | t :: u :: ts => t ++ '_' :: unsplit (u :: ts)

theorem split_ne (s : Text) : split s ≠ [] := by
  cases s with
  | nil => simp [split]
  | cons c cs =>
    simp only [split]
    split
    · simp
    · split <;> simp

theorem unsplit_split (s : Text) : unsplit (split s) = s := by
  induction s with
  | nil => rfl
  | cons c cs ih =>
    simp only [split]
    split
    · rename_i h
      have h : c = '_' := by simpa using h
      subst h
      cases hs : split cs with
      | nil => exact absurd hs (split_ne cs)
      | cons t ts => rw [hs] at ih; simp [unsplit, ih]
    · cases hs : split cs with
      | nil => exact absurd hs (split_ne cs)
      | cons t ts =>
        rw [hs] at ih
        cases ts with
        | nil => simp only [unsplit] at ih ⊢; rw [ih]
        | cons u us => simp only [unsplit] at ih ⊢; rw [← ih]; rfl

theorem split_mem (s : Text) (P : Char → Prop) (h : ∀ c ∈ s, P c) : ∀ t ∈ split s, ∀ c ∈ t, P c := by
  induction s with
  | nil => intro t ht c hc; simp [split] at ht; subst ht; simp at hc
  | cons a as ih =>
    have ih := ih (fun c hc => h c (List.mem_cons_of_mem _ hc))
    simp only [split]
    split
    · intro t ht c hc
      rcases List.mem_cons.mp ht with rfl | ht
      · simp at hc
      · exact ih t ht c hc
    · cases hs : split as with
      | nil => exact absurd hs (split_ne as)
      | cons u us =>
        rw [hs] at ih
        intro t ht c hc
        rcases List.mem_cons.mp ht with rfl | ht
        · rcases List.mem_cons.mp hc with rfl | hc
          · exact h _ (by simp)
          · exact ih u (by simp) c hc
        · exact ih t (List.mem_cons_of_mem _ ht) c hc

theorem char_upper : ∀ c ∈ nameChars, (if c.toUpper = ' ' then '_' else c.toUpper.toUpper) = c := by decide +kernel
theorem char_lower : ∀ c ∈ nameChars, (if c.toLower = ' ' then '_' else c.toLower.toUpper) = c := by decide +kernel

theorem read_capital (t : Text) (h : ∀ c ∈ t, c ∈ nameChars) : read (capital t) = t := by
  cases t with
  | nil => rfl
  | cons c cs =>
    simp only [capital, read, List.map_cons, List.map_map]
    rw [char_upper c (h c (by simp))]
    congr 1
    have : ∀ c ∈ cs, c ∈ nameChars := fun c hc => h c (List.mem_cons_of_mem _ hc)
    clear h
    induction cs with
    | nil => rfl
    | cons d ds ih =>
      rw [List.map_cons, ih (fun c hc => this c (List.mem_cons_of_mem _ hc))]
      congr 1
      exact char_lower d (this d (by simp))

theorem read_join (ts : List Text) (h : ∀ t ∈ ts, ∀ c ∈ t, c ∈ nameChars) : read (join (ts.map capital)) = unsplit ts := by
  induction ts with
  | nil => rfl
  | cons t ts ih =>
    cases ts with
    | nil => exact read_capital t (h t (by simp))
    | cons u us =>
      have ih := ih (fun x hx => h x (List.mem_cons_of_mem _ hx))
      simp only [List.map_cons] at ih ⊢
      simp only [join, unsplit]
      rw [read_append, read_capital t (h t (by simp))]
      congr 1
      have : read (' ' :: join (capital u :: List.map capital us)) = '_' :: read (join (capital u :: List.map capital us)) := rfl
      rw [this, ih]

theorem read_display (s : Text) (h : ∀ c ∈ s, c ∈ nameChars) : read (display s) = s := by
  unfold display
  rw [read_join _ (split_mem s _ h), unsplit_split]

theorem prefix_stop (pat a r : Text) (x : Char) (hx : x ∉ pat) : pat.isPrefixOf (a ++ x :: r) = pat.isPrefixOf a := by
  induction pat generalizing a with
  | nil => simp
  | cons p ps ih =>
    have hp : p ≠ x := fun e => hx (by rw [e]; simp)
    cases a with
    | nil => simp [List.isPrefixOf, hp]
    | cons b bs =>
      simp only [List.cons_append, List.isPrefixOf]
      rw [ih bs (fun m => hx (List.mem_cons_of_mem _ m))]

/-- Behind a character which is not in the pattern, a text keeps its last character. -/
theorem removeFirst_stop (pat a r : Text) (x : Char) (hne : pat ≠ []) (hx : x ∉ pat) :
    removeFirst pat (a ++ x :: r) = removeFirst pat a ++ x :: r ∨ removeFirst pat (a ++ x :: r) = removeFirst pat a ++ x :: removeFirst pat r := by
  induction a with
  | nil =>
    right
    have h0 : pat.isPrefixOf (x :: r) = false := by
      have := prefix_stop pat [] r x hx
      rw [List.nil_append] at this
      rw [this]
      cases pat with
      | nil => exact absurd rfl hne
      | cons p ps => rfl
    simp [removeFirst, h0]
  | cons b bs ih =>
    have hp := prefix_stop pat (b :: bs) r x hx
    simp only [List.cons_append] at hp ⊢
    simp only [removeFirst]
    rw [hp]
    by_cases h : pat.isPrefixOf (b :: bs) = true
    · left
      rw [if_pos h, if_pos h]
      have hl : pat.length ≤ (b :: bs).length := (List.isPrefixOf_iff_prefix.mp h).length_le
      have : b :: (bs ++ x :: r) = (b :: bs) ++ x :: r := rfl
      rw [this, List.drop_append_of_le_length hl]
    · rw [if_neg h, if_neg h]
      rcases ih with ih | ih
      · left; rw [ih]; rfl
      · right; rw [ih]; rfl

theorem removeFirst_last (pat a : Text) (x : Char) (hne : pat ≠ []) (hx : x ∉ pat) : removeFirst pat (a ++ [x]) = removeFirst pat a ++ [x] := by
  rcases removeFirst_stop pat a [] x hne hx with h | h
  · exact h
  · exact h

theorem removeFirst_brackets (pat a args : Text) (hne : pat ≠ []) (h1 : '(' ∉ pat) (h2 : ')' ∉ pat) :
    ∃ args', removeFirst pat (a ++ '(' :: (args ++ [')'])) = removeFirst pat a ++ '(' :: (args' ++ [')']) := by
  rcases removeFirst_stop pat a (args ++ [')']) '(' hne h1 with h | h
  · exact ⟨args, h⟩
  · exact ⟨removeFirst pat args, by rw [h, removeFirst_last pat args ')' hne h2]⟩

theorem removeFirst_absent (pat a : Text) (h : ¬ pat <:+: a) : removeFirst pat a = a := by
  induction a with
  | nil => rfl
  | cons b bs ih =>
    simp only [removeFirst]
    have hn : ¬ pat.isPrefixOf (b :: bs) = true := fun hp => h (List.isPrefixOf_iff_prefix.mp hp).isInfix
    rw [if_neg hn, ih (fun hi => h (hi.trans (List.suffix_cons b bs).isInfix))]

theorem removeFirst_head (pat a : Text) (hne : pat ≠ []) : removeFirst pat (pat ++ a) = a := by
  cases pat with
  | nil => exact absurd rfl hne
  | cons p ps =>
    simp only [List.cons_append, removeFirst]
    have : (p :: ps).isPrefixOf (p :: (ps ++ a)) = true := List.isPrefixOf_iff_prefix.mpr (List.prefix_append (p :: ps) a)
    rw [if_pos this]
    simp

theorem afterLast_end (a : Text) : afterLast (a ++ [')']) = some [] := by
  induction a with
  | nil => rfl
  | cons b bs ih => simp only [List.cons_append, afterLast]; rw [ih]

theorem removeBrackets_call (a args : Text) (h : '(' ∉ a) : removeBrackets (a ++ '(' :: (args ++ [')'])) = a := by
  induction a with
  | nil =>
    simp only [List.nil_append, removeBrackets]
    rw [if_pos (by decide +kernel), afterLast_end]
  | cons b bs ih =>
    have hb : b ≠ '(' := fun e => h (by rw [e]; simp)
    simp only [List.cons_append, removeBrackets]
    rw [if_neg (by simpa using hb), ih (fun m => h (List.mem_cons_of_mem _ m))]

theorem kemper_absent (n : Text) (h : ∀ c ∈ n, c ∈ nameChars) : ¬ lit "KemperMappings." <:+: n := by
  intro hi
  have : 'e' ∈ n := hi.sublist.subset (by decide +kernel)
  exact absurd (h 'e' this) (by decide +kernel)

theorem kemper_text : lit "KemperMappings." = ['K', 'e', 'm', 'p', 'e', 'r', 'M', 'a', 'p', 'p', 'i', 'n', 'g', 's', '.'] := by decide +kernel
theorem mapping_text : lit "MAPPING_" = ['M', 'A', 'P', 'P', 'I', 'N', 'G', '_'] := by decide +kernel

theorem removeFirst_other (p c d : Char) (ps cs : Text) (h : ¬ (p = c ∧ ps.head? = some d)) (hp : ps ≠ []) : removeFirst (p :: ps) (c :: d :: cs) = c :: removeFirst (p :: ps) (d :: cs) := by
  conv => lhs; unfold removeFirst
  rw [if_neg]
  cases ps with
  | nil => exact absurd rfl hp
  | cons q qs =>
    simp only [List.isPrefixOf, Bool.and_eq_true, beq_iff_eq, List.head?_cons, Option.some.injEq] at h ⊢
    exact fun x => h ⟨x.1, x.2.1⟩

theorem removeAll_other (p c d : Char) (ps cs : Text) (h : ¬ (p = c ∧ ps.head? = some d)) (hp : ps ≠ []) : removeAll (p :: ps) 0 (c :: d :: cs) = c :: removeAll (p :: ps) 0 (d :: cs) := by
  conv => lhs; unfold removeAll
  rw [if_neg]
  cases ps with
  | nil => exact absurd rfl hp
  | cons q qs =>
    simp only [List.isPrefixOf, Bool.and_eq_true, beq_iff_eq, List.head?_cons, Option.some.injEq] at h ⊢
    exact fun x => h ⟨x.1, x.2.1⟩

theorem removeFirst_point (ps cs : Text) : removeFirst ('M' :: ps) ('.' :: cs) = '.' :: removeFirst ('M' :: ps) cs := by
  conv => lhs; unfold removeFirst
  rw [if_neg (by simp [List.isPrefixOf])]

theorem removeAll_point (ps cs : Text) : removeAll ('M' :: ps) 0 ('.' :: cs) = '.' :: removeAll ('M' :: ps) 0 cs := by
  conv => lhs; unfold removeAll
  rw [if_neg (by simp [List.isPrefixOf])]

theorem mapping_absent (n : Text) (hn : ¬ lit "MAPPING_" <:+: n) : removeFirst (lit "MAPPING_") (lit "KemperMappings." ++ n) = lit "KemperMappings." ++ n := by
  have h2 := removeFirst_absent _ _ hn
  rw [mapping_text] at h2 ⊢
  rw [kemper_text]
  simp only [List.cons_append, List.nil_append]
  repeat rw [removeFirst_other _ _ _ _ _ (by decide) (by decide)]
  rw [removeFirst_point, h2]

theorem name_bracket (n : Text) (h : ∀ c ∈ n, c ∈ nameChars) : '(' ∉ n := fun m => absurd (h _ m) (by decide +kernel)

theorem strip_call (m n : Text) (hc : Calls m n) (hn : Name n) : stripMappingName m = display n := by
  unfold stripMappingName
  cases hc with
  | function name args =>
    obtain ⟨a1, h1⟩ := removeFirst_brackets (lit "MAPPING_") (lit "MAPPING_" ++ n) args (by decide +kernel) (by decide +kernel) (by decide +kernel)
    rw [h1, removeFirst_head _ _ (by decide +kernel)]
    obtain ⟨a2, h2⟩ := removeFirst_brackets (lit "KemperMappings.") n a1 (by decide +kernel) (by decide +kernel) (by decide +kernel)
    rw [h2, removeFirst_absent _ _ (kemper_absent n hn.1), removeBrackets_call _ _ (name_bracket n hn.1)]
  | method name args =>
    obtain ⟨a1, h1⟩ := removeFirst_brackets (lit "MAPPING_") (lit "KemperMappings." ++ n) args (by decide +kernel) (by decide +kernel) (by decide +kernel)
    rw [h1, mapping_absent n hn.2]
    obtain ⟨a2, h2⟩ := removeFirst_brackets (lit "KemperMappings.") (lit "KemperMappings." ++ n) a1 (by decide +kernel) (by decide +kernel) (by decide +kernel)
    rw [h2, removeFirst_head _ _ (by decide +kernel), removeBrackets_call _ _ (name_bracket n hn.1)]

theorem removeAll_skip (pat a b : Text) : removeAll pat a.length (a ++ b) = removeAll pat 0 b := by
  induction a with
  | nil => rfl
  | cons x xs ih => simp only [List.length_cons, List.cons_append, removeAll]; exact ih

theorem removeAll_stop (pat a r : Text) (x : Char) (k : Nat) (hk : k ≤ a.length) (hne : pat ≠ []) (hx : x ∉ pat) :
    removeAll pat k (a ++ x :: r) = removeAll pat k a ++ x :: removeAll pat 0 r := by
  induction a generalizing k with
  | nil =>
    have hk : k = 0 := by simpa using hk
    subst hk
    have h0 : pat.isPrefixOf (x :: r) = false := by
      have := prefix_stop pat [] r x hx
      rw [List.nil_append] at this
      rw [this]
      cases pat with
      | nil => exact absurd rfl hne
      | cons p ps => rfl
    simp [removeAll, h0]
  | cons b bs ih =>
    cases k with
    | succ k => simp only [List.cons_append, removeAll]; exact ih k (by simpa using hk)
    | zero =>
      have hp := prefix_stop pat (b :: bs) r x hx
      simp only [List.cons_append] at hp ⊢
      simp only [removeAll]
      rw [hp]
      by_cases h : pat.isPrefixOf (b :: bs) = true
      · rw [if_pos h, if_pos h]
        have hl : pat.length ≤ (b :: bs).length := (List.isPrefixOf_iff_prefix.mp h).length_le
        exact ih _ (by simp only [List.length_cons] at hl; omega)
      · rw [if_neg h, if_neg h, ih 0 (Nat.zero_le _)]; rfl

theorem removeAll_brackets (pat a args : Text) (hne : pat ≠ []) (h1 : '(' ∉ pat) (h2 : ')' ∉ pat) :
    removeAll pat 0 (a ++ '(' :: (args ++ [')'])) = removeAll pat 0 a ++ '(' :: (removeAll pat 0 args ++ [')']) := by
  rw [removeAll_stop pat a _ '(' 0 (Nat.zero_le _) hne h1, removeAll_stop pat args [] ')' 0 (Nat.zero_le _) hne h2]
  rfl

theorem removeAll_absent (pat a : Text) (h : ¬ pat <:+: a) : removeAll pat 0 a = a := by
  induction a with
  | nil => rfl
  | cons b bs ih =>
    simp only [removeAll]
    have hn : ¬ pat.isPrefixOf (b :: bs) = true := fun hp => h (List.isPrefixOf_iff_prefix.mp hp).isInfix
    rw [if_neg hn, ih (fun hi => h (hi.trans (List.suffix_cons b bs).isInfix))]

theorem removeAll_head (pat a : Text) (hne : pat ≠ []) : removeAll pat 0 (pat ++ a) = removeAll pat 0 a := by
  cases pat with
  | nil => exact absurd rfl hne
  | cons p ps =>
    simp only [List.cons_append, removeAll]
    have : (p :: ps).isPrefixOf (p :: (ps ++ a)) = true := List.isPrefixOf_iff_prefix.mpr (List.prefix_append (p :: ps) a)
    rw [if_pos this]
    exact removeAll_skip (p :: ps) ps a

theorem mapping_absent_all (n : Text) (hn : ¬ lit "MAPPING_" <:+: n) : removeAll (lit "MAPPING_") 0 (lit "KemperMappings." ++ n) = lit "KemperMappings." ++ n := by
  have h2 := removeAll_absent _ _ hn
  rw [mapping_text] at h2 ⊢
  rw [kemper_text]
  simp only [List.cons_append, List.nil_append]
  repeat rw [removeAll_other _ _ _ _ _ (by decide) (by decide)]
  rw [removeAll_point, h2]

theorem stripAll_call (m n : Text) (hc : Calls m n) (hn : Name n) : stripAll m = display n := by
  unfold stripAll
  cases hc with
  | function name args =>
    rw [removeAll_brackets _ _ _ (by decide +kernel) (by decide +kernel) (by decide +kernel), removeAll_head _ _ (by decide +kernel), removeAll_absent _ n hn.2,
      removeAll_brackets _ _ _ (by decide +kernel) (by decide +kernel) (by decide +kernel), removeAll_absent _ _ (kemper_absent n hn.1), removeBrackets_call _ _ (name_bracket n hn.1)]
  | method name args =>
    rw [removeAll_brackets _ _ _ (by decide +kernel) (by decide +kernel) (by decide +kernel), mapping_absent_all n hn.2,
      removeAll_brackets _ _ _ (by decide +kernel) (by decide +kernel) (by decide +kernel), removeAll_head _ _ (by decide +kernel), removeAll_absent _ _ (kemper_absent n hn.1), removeBrackets_call _ _ (name_bracket n hn.1)]

theorem calls_given (m n : Text) (hc : Calls m n) : given (some m) = some m := by
  have : m ≠ lit "None" := by
    intro e
    have hp : '(' ∈ m := by cases hc <;> simp
    rw [e] at hp
    exact absurd hp (by decide +kernel)
  simp [given, this]

/-- The shown text in one pass; the flag tells if a word begins here. -/
def pass : Bool → Text → Text
  | _, [] => []
  | first, c :: cs => if c == '_' then ' ' :: pass true cs else (if first then c.toUpper else c.toLower) :: pass false cs

theorem display_pass (s : Text) : join ((split s).map capital) = pass true s ∧ ∀ t ts, split s = t :: ts → join (t.map Char.toLower :: ts.map capital) = pass false s := by
  induction s with
  | nil => refine ⟨rfl, ?_⟩; intro t ts h; simp only [split, List.cons.injEq] at h; rw [← h.1, ← h.2]; rfl
  | cons c cs ih =>
    obtain ⟨i1, i2⟩ := ih
    cases hs : split cs with
    | nil => exact absurd hs (split_ne cs)
    | cons u us =>
      rw [hs] at i1
      have i2 := i2 u us hs
      by_cases hc : c = '_'
      · subst hc
        have e : split ('_' :: cs) = [] :: u :: us := by simp [split, hs]
        rw [e]
        refine ⟨?_, ?_⟩
        · simp only [List.map_cons, join, capital, List.nil_append, pass, beq_self_eq_true, if_true]
          rw [← i1]; rfl
        · intro t ts h
          simp only [List.cons.injEq] at h
          rw [← h.1, ← h.2]
          simp only [List.map_cons, List.map_nil, join, List.nil_append, pass, beq_self_eq_true, if_true]
          rw [← i1]; rfl
      · have e : split (c :: cs) = (c :: u) :: us := by simp [split, hs, hc]
        rw [e]
        have hb : (c == '_') = false := by simp [hc]
        have shift : ∀ (x : Char) (a : Text) (r : List Text), join ((x :: a) :: r) = x :: join (a :: r) := by
          intro x a r; cases r <;> rfl
        refine ⟨?_, ?_⟩
        · simp only [List.map_cons, capital, pass, hb, if_true]
          rw [shift, i2]; rfl
        · intro t ts h
          simp only [List.cons.injEq] at h
          rw [← h.1, ← h.2]
          simp only [List.map_cons, pass, hb]
          rw [shift, i2]; rfl

theorem char_case : ∀ c ∈ nameChars, c ≠ '_' → c.toUpper.isLower = false ∧ c.toLower.isUpper = false ∧ c.toUpper ≠ ' ' ∧ c.toLower ≠ ' ' := by decide +kernel

theorem pass_words (s : Text) (h : ∀ c ∈ s, c ∈ nameChars) : ∀ (first : Bool) (i : Nat) (c : Char), (pass first s)[i]? = some c →
    if (i = 0 ∧ first = true) ∨ (i ≠ 0 ∧ (pass first s)[i - 1]? = some ' ') then c.isLower = false else c.isUpper = false := by
  induction s with
  | nil => intro first i c hc; simp [pass] at hc
  | cons a as ih =>
    have ih := ih (fun c hc => h c (List.mem_cons_of_mem _ hc))
    intro first i c hc
    by_cases ha : a = '_'
    · subst ha
      have e : pass first ('_' :: as) = ' ' :: pass true as := by simp [pass]
      rw [e] at hc ⊢
      cases i with
      | zero =>
        simp only [List.getElem?_cons_zero, Option.some.injEq] at hc
        subst hc
        split <;> decide
      | succ k =>
        simp only [List.getElem?_cons_succ] at hc
        have := ih true k c hc
        cases k with
        | zero => simpa using this
        | succ k => simpa using this
    · have e : pass first (a :: as) = (if first then a.toUpper else a.toLower) :: pass false as := by simp [pass, ha]
      rw [e] at hc ⊢
      obtain ⟨c1, c2, c3, c4⟩ := char_case a (h a List.mem_cons_self) ha
      cases i with
      | zero =>
        simp only [List.getElem?_cons_zero, Option.some.injEq] at hc
        subst hc
        cases first
        · simpa using c2
        · simpa using c1
      | succ k =>
        simp only [List.getElem?_cons_succ] at hc
        have := ih false k c hc
        cases k with
        | zero =>
          have hx : (if first = true then a.toUpper else a.toLower) ≠ ' ' := by split <;> assumption
          simpa [hx] using this
        | succ k => simpa using this

theorem display_words (s : Text) (h : ∀ c ∈ s, c ∈ nameChars) : Words (display s) := by
  intro i c hc
  unfold display at hc ⊢
  rw [(display_pass s).1] at hc ⊢
  have := pass_words s h true i c hc
  by_cases hi : i = 0 <;> simpa [hi] using this

end C203
open C203

/-- C203: an action on a mapping of the library shows the name of the mapping, readable: of `MAPPING_RIG_VOLUME()` it is `Rig Volume`. So it does for pedals, encoders and switches. -/
theorem C203_name (mapping name : Text) (call : Spec.Calls mapping name) (ok : Spec.Name name) :
    Spec.Reads (analog (some mapping)) name ∧ Spec.Reads (encoder (some mapping)) name ∧ Spec.Reads (binary (some mapping)) name := by
  unfold analog encoder binary
  rw [calls_given _ _ call]
  simp only
  rw [strip_call _ _ call ok, stripAll_call _ _ call ok]
  have := read_display name ok.1
  exact ⟨this, this, this⟩

example : Spec.Calls (lit "MAPPING_RIG_VOLUME()") (lit "RIG_VOLUME") ∧ analog (some (lit "MAPPING_RIG_VOLUME()")) = lit "Rig Volume"
    ∧ binary (some (lit "KemperMappings.EFFECT_STATE(KemperEffectSlot.EFFECT_SLOT_ID_A)")) = lit "Effect State" :=
  ⟨.function (lit "RIG_VOLUME") [], by decide +kernel, by decide +kernel⟩

example : Spec.Name (lit "RIG_VOLUME") := ⟨by decide +kernel, by decide +kernel⟩

/-- C203: it shows the name in words: every word begins with a capital letter or a digit, and goes on with small letters. -/
theorem C203_words (mapping name : Text) (call : Spec.Calls mapping name) (ok : Spec.Name name) :
    Spec.Words (analog (some mapping)) ∧ Spec.Words (encoder (some mapping)) ∧ Spec.Words (binary (some mapping)) := by
  unfold analog encoder binary
  rw [calls_given _ _ call]
  simp only
  rw [strip_call _ _ call ok, stripAll_call _ _ call ok]
  have := display_words name ok.1
  exact ⟨this, this, this⟩

/-- C203: if there is no parameter, or it is `None`, the action is shown as one on another parameter. -/
theorem C203_none (mapping : Option Text) (none : mapping = .none ∨ mapping = some (lit "None")) (offset : Option Text) :
    analog mapping = lit "Other Parameter" ∧ encoder mapping = lit "Other Parameter" ∧ binary mapping = lit "Other Parameter (w.FB)" ∧ upDown mapping offset = lit "Parameter Up/Down" := by
  rcases none with h | h <;> subst h <;> exact ⟨by decide +kernel, by decide +kernel, by decide +kernel, by rfl⟩

/-- C203, partial: actions on different mappings show different names. Missing: actions which differ in the argument of the mapping only, see the witness. -/
theorem C203_distinct_partial (m1 m2 n1 n2 : Text) (call1 : Spec.Calls m1 n1) (call2 : Spec.Calls m2 n2) (ok1 : Spec.Name n1) (ok2 : Spec.Name n2) (different : n1 ≠ n2) :
    analog (some m1) ≠ analog (some m2) ∧ encoder (some m1) ≠ encoder (some m2) ∧ binary (some m1) ≠ binary (some m2) := by
  obtain ⟨a1, e1, b1⟩ := C203_name m1 n1 call1 ok1
  obtain ⟨a2, e2, b2⟩ := C203_name m2 n2 call2 ok2
  unfold Spec.Reads at *
  exact ⟨fun h => different (by rw [← a1, ← a2, h]), fun h => different (by rw [← e1, ← e2, h]), fun h => different (by rw [← b1, ← b2, h])⟩

/-- C203: an action which increases or decreases a parameter shows the name of its mapping, followed by ` Up` for a positive offset, and by ` Down` for a negative one. -/
theorem C203_direction (mapping name : Text) (call : Spec.Calls mapping name) (ok : Spec.Name name) (n : Nat) (positive : n ≠ 0) :
    ∃ shown, Spec.Reads shown name ∧ upDown (some mapping) (some (Nat.toDigits 10 n)) = shown ++ lit " Up"
      ∧ upDown (some mapping) (some ('-' :: Nat.toDigits 10 n)) = shown ++ lit " Down" := by
  refine ⟨display name, read_display name ok.1, ?_, ?_⟩
  · have hg : given (some (Nat.toDigits 10 n)) = some (Nat.toDigits 10 n) := by
      have : Nat.toDigits 10 n ≠ lit "None" := by
        intro e
        have : 'N' ∈ Nat.toDigits 10 n := by rw [e]; decide
        exact absurd (Nat.isDigit_of_mem_toDigits (by decide +kernel) (by decide +kernel) this) (by decide +kernel)
      simp [given, this]
    have hp : MappingNames.positive (Nat.toDigits 10 n) = true := by
      unfold MappingNames.positive
      have := PySwitch.Properties.parseInt_nat n
      rw [PySwitch.Properties.intText_nat] at this
      rw [this]
      simp only [decide_eq_true_eq]
      omega
    unfold upDown
    rw [calls_given _ _ call, hg]
    simp only
    rw [hp, strip_call _ _ call ok]
    rfl
  · have hg : given (some ('-' :: Nat.toDigits 10 n)) = some ('-' :: Nat.toDigits 10 n) := by
      have : '-' :: Nat.toDigits 10 n ≠ lit "None" := by
        intro e
        have : '-' ∈ lit "None" := by rw [← e]; simp
        exact absurd this (by decide +kernel)
      simp [given, this]
    have hp : MappingNames.positive ('-' :: Nat.toDigits 10 n) = false := by
      unfold MappingNames.positive
      have : PySwitch.Properties.parseInt ('-' :: Nat.toDigits 10 n) = some (-(n : Int)) := by
        unfold PySwitch.Properties.parseInt
        have : ('-' :: Nat.toDigits 10 n).dropWhile PySwitch.Properties.isWhite = '-' :: Nat.toDigits 10 n := by
          rw [List.dropWhile_cons]; rfl
        rw [this]
        simp [PySwitch.Properties.parseNat_digits]
      rw [this]
      simp only [decide_eq_false_iff_not]
      omega
    unfold upDown
    rw [calls_given _ _ call, hg]
    simp only
    rw [hp, strip_call _ _ call ok]
    rfl

/-- C203: the fixed effects of the device have different names. -/
theorem C203_fixed (a b : Text) (ha : a ∈ ["TRANSPOSE", "GATE", "COMP", "BOOST", "WAH", "CHORUS", "AIR", "DBL_TRACKER"].map fun s => lit "FIXED_SLOT_ID_" ++ lit s)
    (hb : b ∈ ["TRANSPOSE", "GATE", "COMP", "BOOST", "WAH", "CHORUS", "AIR", "DBL_TRACKER"].map fun s => lit "FIXED_SLOT_ID_" ++ lit s) (same : fixedState a = fixedState b) : a = b := by
  have all : ∀ x ∈ ["TRANSPOSE", "GATE", "COMP", "BOOST", "WAH", "CHORUS", "AIR", "DBL_TRACKER"].map fun s => lit "FIXED_SLOT_ID_" ++ lit s,
      ∀ y ∈ ["TRANSPOSE", "GATE", "COMP", "BOOST", "WAH", "CHORUS", "AIR", "DBL_TRACKER"].map fun s => lit "FIXED_SLOT_ID_" ++ lit s, fixedState x = fixedState y → x = y := by decide +kernel
  exact all a ha b hb same

/-- C203: an effect action names its slot, as it is called on the device. -/
theorem C203_effect (slot : String) (known : slot ∈ ["A", "B", "C", "D", "X", "MOD", "DLY", "REV"]) : effectState (lit "KemperEffectSlot.EFFECT_SLOT_ID_" ++ lit slot) = lit "Effect State " ++ lit slot := by
  have all : ∀ s ∈ ["A", "B", "C", "D", "X", "MOD", "DLY", "REV"], effectState (lit "KemperEffectSlot.EFFECT_SLOT_ID_" ++ lit s) = lit "Effect State " ++ lit s := by decide +kernel
  exact all slot known

/-- C203: the argument of a mapping is left out, so switches for different effect slots show the same name. -/
theorem C203_argument_witness (args1 args2 : Text) : binary (some (lit "KemperMappings.EFFECT_STATE" ++ '(' :: (args1 ++ [')']))) = binary (some (lit "KemperMappings.EFFECT_STATE" ++ '(' :: (args2 ++ [')']))) := by
  have e : lit "KemperMappings.EFFECT_STATE" = lit "KemperMappings." ++ lit "EFFECT_STATE" := by decide +kernel
  have ok : Spec.Name (lit "EFFECT_STATE") := ⟨by decide +kernel, by decide +kernel⟩
  unfold binary
  rw [e, calls_given _ _ (.method _ args1), calls_given _ _ (.method _ args2)]
  simp only
  rw [strip_call _ _ (.method _ args1) ok, strip_call _ _ (.method _ args2) ok]

/-- C203: a positive offset given by a name, or in brackets, is shown as ` Down`. -/
theorem C203_offset_witness : upDown (some (lit "MAPPING_RIG_VOLUME()")) (some (lit "STEP")) = lit "Rig Volume Down" ∧ upDown (some (lit "MAPPING_RIG_VOLUME()")) (some (lit "(5)")) = lit "Rig Volume Down" 
    ∧ upDown (some (lit "MAPPING_RIG_VOLUME()")) (some (lit "0")) = lit "Rig Volume Down" := by decide +kernel

end PySwitch.Props
