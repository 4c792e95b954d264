import Verif.Spec.ActionOrder
import Verif.Props.Browser
/-!
C205: the order of the actions in the dialog.
-/
namespace PySwitch.Props
open PySwitch.ActionOrder
open PySwitch.Properties (Text lit)

namespace C205
open Spec

theorem before_of (le : Text → Text → Bool) (col : Collation le) (actions : List Action) (a b : Action) (h : le b.sort a.sort = false) : Before (listed le actions) a b := by
  intro i j hi hj
  have hp := c158_sorted_sorted (fun x y : Action => le x.sort y.sort) (fun _ _ _ => col.trans _ _ _) (fun _ _ => col.total _ _) actions
  rcases Nat.lt_trichotomy i j with hlt | heq | hgt
  · exact hlt
  · subst heq
    rw [hi] at hj
    have : a = b := Option.some.inj hj
    subst this
    have := col.total a.sort a.sort
    rw [Bool.or_self, h] at this
    simp at this
  · obtain ⟨hil, hi⟩ := List.getElem?_eq_some_iff.1 hi
    obtain ⟨hjl, hj⟩ := List.getElem?_eq_some_iff.1 hj
    have := List.pairwise_iff_getElem.1 hp j i hjl hil hgt
    have hi : (Browser.sorted (fun x y : Action => le x.sort y.sort) actions)[i]'hil = a := hi
    have hj : (Browser.sorted (fun x y : Action => le x.sort y.sort) actions)[j]'hjl = b := hj
    rw [hi, hj, h] at this
    simp at this

/-- The texts differ first at two characters with different places, or the one is the beginning of the other. -/
def less : Text → Text → Bool
  | [], [] => false
  | [], y :: _ => (place y).isSome
  | _ :: _, [] => false
  | x :: s, y :: t => if x = y then less s t else match place x, place y with
    | some i, some j => decide (i < j)
    | _, _ => false

theorem strict (le : Text → Text → Bool) (col : Collation le) (u v : Text) (full : less u v = true) : le v u = false := by
  suffices h : ∀ p : Text, le (p ++ v) (p ++ u) = false from h []
  intro p
  induction u generalizing v p with
  | nil =>
    cases v with
    | nil => simp [less] at full
    | cons y v =>
      simp only [less] at full
      obtain ⟨i, hi⟩ := Option.isSome_iff_exists.1 full
      rw [List.append_nil]
      exact col.shorter p v y i hi
  | cons x u ih =>
    cases v with
    | nil => simp [less] at full
    | cons y v =>
      simp only [less] at full
      split at full
      · rename_i e
        subst e
        have := ih v full (p ++ [x])
        simpa using this
      · split at full
        · rename_i i j hi hj
          exact col.first p u v x y i j hi hj (by simpa using full)
        · simp at full

/-- If the first texts differ at some place, what follows does not matter. -/
def differ : Text → Text → Bool
  | x :: s, y :: t => if x = y then differ s t else match place x, place y with
    | some i, some j => decide (i < j)
    | _, _ => false
  | _, _ => false

theorem differ_less (a b s t : Text) (h : differ a b = true) : less (a ++ s) (b ++ t) = true := by
  induction a generalizing b with
  | nil => simp [differ] at h
  | cons x a ih =>
    cases b with
    | nil => simp [differ] at h
    | cons y b =>
      simp only [differ] at h
      simp only [List.cons_append, less]
      split at h
      · rename_i e; rw [if_pos e]; exact ih b h
      · rename_i e; rw [if_neg e]; exact h

theorem differ_strict (le : Text → Text → Bool) (col : Collation le) (a b s t : Text) (h : differ a b = true) : le (b ++ t) (a ++ s) = false :=
  strict le col _ _ (differ_less a b s t h)

theorem less_cancel (p u v : Text) : less (p ++ u) (p ++ v) = less u v := by
  induction p with
  | nil => rfl
  | cons x p ih => simp only [List.cons_append, less, if_true]; exact ih

/-- The beginning of the text for sorting of a group. -/
def start (g : Text) : Text := if g = lit "rig" then lit "aK" else if g = lit "bank" then lit "bK" else kemperSort g []

theorem start_prefix (g short : Text) (_ : g ∈ kemperGroups) : ∃ r, kemperSort g short = start g ++ r ∧ ((g ≠ lit "rig" ∧ g ≠ lit "bank") → r = []) := by
  unfold kemperSort start
  by_cases h1 : g = lit "rig"
  · rw [if_pos h1, if_pos h1]
    refine ⟨lit "emper: " ++ short, ?_, fun h => absurd h1 h.1⟩
    rw [← List.append_assoc, ← List.append_assoc]
    exact congrArg (· ++ short) (by decide +kernel)
  · rw [if_neg h1, if_neg h1]
    by_cases h2 : g = lit "bank"
    · rw [if_pos h2, if_pos h2]
      refine ⟨lit "emper: " ++ short, ?_, fun h => absurd h2 h.2⟩
      rw [← List.append_assoc, ← List.append_assoc]
      exact congrArg (· ++ short) (by decide +kernel)
    · rw [if_neg h2, if_neg h2]
      refine ⟨[], ?_, fun _ => rfl⟩
      unfold kemperSort
      rw [if_neg h1, if_neg h2]
      simp

/-- All pairs of groups. -/
theorem groups_table : kemperGroups.Pairwise fun a b => differ (start a) (start b) = true ∨ (a = lit "none" ∧ b = lit "morph" ∧ less (start a) (start b) = true) := by decide +kernel

theorem groups_less (i j : Nat) (a b sa sb : Text) (hi : kemperGroups[i]? = some a) (hj : kemperGroups[j]? = some b) (hij : i < j) : less (kemperSort a sa) (kemperSort b sb) = true := by
  obtain ⟨hil, hi⟩ := List.getElem?_eq_some_iff.1 hi
  obtain ⟨hjl, hj⟩ := List.getElem?_eq_some_iff.1 hj
  have ha : a ∈ kemperGroups := by rw [← hi]; exact List.getElem_mem hil
  have hb : b ∈ kemperGroups := by rw [← hj]; exact List.getElem_mem hjl
  have t := List.pairwise_iff_getElem.1 groups_table i j hil hjl hij
  rw [hi, hj] at t
  obtain ⟨ra, ea, na⟩ := start_prefix a sa ha
  obtain ⟨rb, eb, nb⟩ := start_prefix b sb hb
  rw [ea, eb]
  rcases t with t | ⟨h1, h2, t⟩
  · exact differ_less _ _ _ _ t
  · rw [na (by subst h1; exact ⟨by decide +kernel, by decide +kernel⟩), nb (by subst h2; exact ⟨by decide +kernel, by decide +kernel⟩), List.append_nil, List.append_nil]
    exact t

theorem general_table : general.Pairwise fun g1 g2 => ∀ a ∈ g1, ∀ b ∈ g2, less (generalSort a) (generalSort b) = true := by decide +kernel

theorem kemper_text : clientSort .kemper ++ lit "_" = lit "kemper_" := by decide +kernel

end C205
open C205

/-- C205: the list has exactly the actions, whatever the comparison is, and actions with the same text for sorting stay in the order of their definition. -/
theorem C205_all (le : Text → Text → Bool) (actions : List Action) :
    (listed le actions).Perm actions ∧ (Spec.Collation le → ∀ a b, [a, b].Sublist actions → a.sort = b.sort → [a, b].Sublist (listed le actions)) := by
  refine ⟨c158_sorted_perm _ _, ?_⟩
  intro col a b hs he
  apply c158_stable _ a b actions hs
  have := col.total a.sort b.sort
  rw [he] at this ⊢
  simpa using this

/-- C205: the actions for the Kemper come first, then those for the Boomerang, then the general ones. -/
theorem C205_clients (le : Text → Text → Bool) (col : Spec.Collation le) (actions : List Action) (a b : Action)
    (h : (a.client = .kemper ∧ b.client ≠ .kemper) ∨ (a.client = .boomerang ∧ b.client = .loc)) : Spec.Before (listed le actions) a b := by
  apply before_of le col
  unfold Action.sort
  rcases h with ⟨h1, h2⟩ | ⟨h1, h2⟩
  · rw [h1]
    cases hb : b.client with
    | kemper => exact absurd hb h2
    | boomerang => exact differ_strict le col _ _ _ _ (by decide +kernel)
    | loc => exact differ_strict le col _ _ _ _ (by decide +kernel)
  · rw [h1, h2]
    exact differ_strict le col _ _ _ _ (by decide +kernel)

/-- C205: the actions for the Kemper are listed by their categories, in the order rig, amp, bank, effects, tuner, none, morph, other, tempo, looper. -/
theorem C205_kemper (le : Text → Text → Bool) (col : Spec.Collation le) (actions : List Action) (a b : Action) (ha : a.client = .kemper) (hb : b.client = .kemper)
    (i j : Nat) (hi : Spec.kemperGroups[i]? = some (Spec.group a)) (hj : Spec.kemperGroups[j]? = some (Spec.group b)) (hij : i < j) : Spec.Before (listed le actions) a b := by
  apply before_of le col
  apply strict le col
  unfold Action.sort
  rw [ha, hb, less_cancel, less_cancel]
  exact groups_less i j _ _ _ _ hi hj hij

/-- C205: of the rig actions and of the bank actions for the Kemper, those come first whose shown name is first in the alphabet. -/
theorem C205_names (le : Text → Text → Bool) (col : Spec.Collation le) (actions : List Action) (a b : Action) (ha : a.client = .kemper) (hb : b.client = .kemper)
    (cat : a.data = b.data) (named : a.data = lit "rig" ∨ a.data = lit "bank") (p s t : Text) (x y : Char) (i j : Nat)
    (na : a.short = p ++ x :: s) (nb : b.short = p ++ y :: t) (hx : Spec.place x = some i) (hy : Spec.place y = some j) (hij : i < j) : Spec.Before (listed le actions) a b := by
  apply before_of le col
  apply strict le col
  unfold Action.sort
  rw [ha, hb, less_cancel, less_cancel]
  simp only
  have ca : a.category = a.data := by
    unfold Action.category; rw [if_neg]; rcases named with h | h <;> rw [h] <;> decide +kernel
  have cb : b.category = a.data := by
    unfold Action.category; rw [← cat, if_neg]; rcases named with h | h <;> rw [h] <;> decide +kernel
  rw [ca, cb, na, nb]
  have core : less (p ++ x :: s) (p ++ y :: t) = true := by
    rw [less_cancel]
    have : x ≠ y := by intro h; rw [h, hy] at hx; have := Option.some.inj hx; omega
    simp only [less, if_neg this, hx, hy]
    simpa using hij
  rcases named with h | h
  · rw [h]; unfold kemperSort; rw [if_pos rfl, if_pos rfl, less_cancel, less_cancel]; exact core
  · rw [h]; unfold kemperSort
    rw [if_neg (by decide +kernel), if_pos rfl, if_neg (by decide +kernel), if_pos rfl, less_cancel, less_cancel]; exact core

/-- C205: the general actions are at the end of the list of their client in a fixed order: actions on any parameter, up/down, keyboard, encoder button, custom messages, rotating messages, pager. -/
theorem C205_general (le : Text → Text → Bool) (col : Spec.Collation le) (actions : List Action) (a b : Action) (ha : a.client = .loc) (hb : b.client = .loc)
    (i j : Nat) (g1 g2 : List Text) (hi : Spec.general[i]? = some g1) (hj : Spec.general[j]? = some g2) (ma : a.name ∈ g1) (mb : b.name ∈ g2) (hij : i < j) :
    Spec.Before (listed le actions) a b := by
  apply before_of le col
  apply strict le col
  unfold Action.sort
  rw [ha, hb, less_cancel, less_cancel]
  obtain ⟨hil, hi⟩ := List.getElem?_eq_some_iff.1 hi
  obtain ⟨hjl, hj⟩ := List.getElem?_eq_some_iff.1 hj
  have t := List.pairwise_iff_getElem.1 general_table i j hil hjl hij
  rw [hi, hj] at t
  exact t a.name ma b.name mb

/-- C205: any other general action, with a name which does not begin with the letter Z, is before them. -/
theorem C205_other (le : Text → Text → Bool) (col : Spec.Collation le) (actions : List Action) (a b : Action) (ha : a.client = .loc) (hb : b.client = .loc)
    (c : Char) (rest : Text) (i : Nat) (na : a.name = c :: rest) (hc : Spec.place c = some i) (hz : i < 36) (other : ∀ g ∈ Spec.general, a.name ∉ g) (notPager : ¬ lit "PagerAction" <+: a.name)
    (g : List Text) (hg : g ∈ Spec.general) (mb : b.name ∈ g) : Spec.Before (listed le actions) a b := by
  apply before_of le col
  apply strict le col
  unfold Action.sort
  rw [ha, hb, less_cancel, less_cancel]
  simp only
  have sa : generalSort a.name = a.name := by
    have ne : ∀ g ∈ Spec.general, ∀ x ∈ g, a.name ≠ x := fun g hg x hx e => other g hg (e ▸ hx)
    unfold generalSort
    rw [if_neg (by rw [List.isPrefixOf_iff_prefix]; exact notPager)]
    rw [if_neg (ne _ (List.mem_of_getElem? (i := 0) rfl) _ (List.mem_of_getElem? (i := 0) rfl)), if_neg (ne _ (List.mem_of_getElem? (i := 0) rfl) _ (List.mem_of_getElem? (i := 1) rfl)),
      if_neg (ne _ (List.mem_of_getElem? (i := 0) rfl) _ (List.mem_of_getElem? (i := 2) rfl)), if_neg (ne _ (List.mem_of_getElem? (i := 1) rfl) _ (List.mem_of_getElem? (i := 0) rfl)),
      if_neg (ne _ (List.mem_of_getElem? (i := 2) rfl) _ (List.mem_of_getElem? (i := 0) rfl)), if_neg (ne _ (List.mem_of_getElem? (i := 3) rfl) _ (List.mem_of_getElem? (i := 0) rfl)),
      if_neg (ne _ (List.mem_of_getElem? (i := 4) rfl) _ (List.mem_of_getElem? (i := 0) rfl)), if_neg (ne _ (List.mem_of_getElem? (i := 5) rfl) _ (List.mem_of_getElem? (i := 0) rfl))]
  have zs : ∀ g ∈ Spec.general, ∀ x ∈ g, (generalSort x).head? = some 'Z' := by decide +kernel
  have hbz := zs g hg _ mb
  rw [sa, na]
  generalize generalSort b.name = sb at hbz
  cases sb with
  | nil => simp at hbz
  | cons z tz =>
    simp only [List.head?_cons, Option.some.injEq] at hbz
    subst hbz
    have pz : Spec.place 'Z' = some 36 := by decide +kernel
    have : c ≠ 'Z' := by intro h; rw [h, pz] at hc; have := Option.some.inj hc; omega
    simp only [less, if_neg this, hc, pz]
    simpa using hz

namespace C205
/-- A comparison: by the places in the alphabet, all other characters after the letters. -/
def weight (c : Char) : Nat := (Spec.place c).getD (100 + c.toNat)

/-- Lexicographic order of the weights. -/
def lex : List Nat → List Nat → Bool
  | [], _ => true
  | _ :: _, [] => false
  | a :: s, b :: t => if a < b then true else if b < a then false else lex s t

def byWeight (s t : Text) : Bool := lex (s.map weight) (t.map weight)

theorem lex_total (a b : List Nat) : (lex a b || lex b a) = true := by
  induction a generalizing b with
  | nil => simp [lex]
  | cons x a ih =>
    cases b with
    | nil => simp [lex]
    | cons y b =>
      simp only [lex]
      rcases Nat.lt_trichotomy x y with h | h | h
      · rw [if_pos h]; simp
      · subst h; simp only [Nat.lt_irrefl, if_false]; exact ih b
      · rw [if_neg (by omega), if_pos h, if_pos h]; rfl

theorem lex_trans (a b c : List Nat) (h1 : lex a b = true) (h2 : lex b c = true) : lex a c = true := by
  induction a generalizing b c with
  | nil => simp [lex]
  | cons x a ih =>
    cases b with
    | nil => simp [lex] at h1
    | cons y b =>
      cases c with
      | nil => simp [lex] at h2
      | cons z c =>
        simp only [lex] at h1 h2 ⊢
        split at h1
        · split at h2
          · rw [if_pos (by omega)]
          · split at h2
            · simp at h2
            · rw [if_pos (by omega)]
        · split at h1
          · simp at h1
          · split at h2
            · rw [if_pos (by omega)]
            · split at h2
              · simp at h2
              · rw [if_neg (by omega), if_neg (by omega)]
                exact ih b c h1 h2

theorem byWeight_collation : Spec.Collation byWeight := by
  refine ⟨fun a b => lex_total _ _, fun a b c => lex_trans _ _ _, ?_, ?_⟩
  · intro p s t x y i j hx hy hij
    unfold byWeight
    induction p with
    | nil =>
      have wx : weight x = i := by unfold weight; rw [hx]; rfl
      have wy : weight y = j := by unfold weight; rw [hy]; rfl
      simp only [List.nil_append, List.map_cons, lex, wx, wy]
      rw [if_neg (by omega), if_pos hij]
    | cons c p ih => simp only [List.cons_append, List.map_cons, lex, Nat.lt_irrefl, if_false]; exact ih
  · intro p s x i hx
    unfold byWeight
    induction p with
    | nil => rfl
    | cons c p ih => simp only [List.cons_append, List.map_cons, lex, Nat.lt_irrefl, if_false]; exact ih

def rigUp : Action := ⟨.kemper, lit "RIG_UP", lit "rig", lit "Rig Up"⟩
def rigDown : Action := ⟨.kemper, lit "RIG_DOWN", lit "rig", lit "Rig Down"⟩
def tap : Action := ⟨.kemper, lit "TAP_TEMPO", lit "tempo", lit "Tap Tempo"⟩
def panic : Action := ⟨.boomerang, lit "BOOMERANG_PANIC", lit "boomerang-generic", lit "Panic"⟩
def fixedText : Action := ⟨.loc, lit "DISPLAY_FIXED_TEXT", lit "other", lit "Display Fixed Text"⟩
def binary : Action := ⟨.loc, lit "BINARY_SWITCH", lit "other", lit "Other Parameter"⟩
def pager : Action := ⟨.loc, lit "PagerAction", lit "pager", lit "Pager"⟩
end C205

/-- There is such a comparison, and all theorems apply to a list. -/
example : Spec.Collation byWeight ∧ listed byWeight [pager, binary, fixedText, panic, tap, rigUp, rigDown] = [rigDown, rigUp, tap, panic, fixedText, binary, pager] :=
  ⟨byWeight_collation, by decide +kernel⟩

example : Spec.kemperGroups[0]? = some (Spec.group rigUp) ∧ Spec.kemperGroups[8]? = some (Spec.group tap) ∧ Spec.place 'D' = some 14 ∧ Spec.place 'U' = some 31
    ∧ (∀ g ∈ Spec.general, fixedText.name ∉ g) ∧ ¬ lit "PagerAction" <+: fixedText.name ∧ binary.name ∈ [lit "BINARY_SWITCH", lit "EncoderAction", lit "AnalogAction"] := by decide +kernel

/-- C205, witness: a category which is not known to the program is sorted by its own name, among the letters for the known ones: `cabinet` is listed between bank and effects. -/
theorem C205_category_witness (short : Text) : kemperSort (lit "cabinet") short = lit "cabinet" ∧ C205.less (kemperSort (lit "cabinet") short) (kemperSort (lit "effects") short) = true
    ∧ kemperSort (lit "effects") (lit "A") = kemperSort (lit "effects") (lit "B") := by
  have h : ∀ s, kemperSort (lit "cabinet") s = lit "cabinet" := by
    intro s; unfold kemperSort
    rw [if_neg (by decide +kernel), if_neg (by decide +kernel), if_neg (by decide +kernel), if_neg (by decide +kernel), if_neg (by decide +kernel), if_neg (by decide +kernel)]
  have h2 : ∀ s, kemperSort (lit "effects") s = lit "e" := by
    intro s; unfold kemperSort
    rw [if_neg (by decide +kernel), if_neg (by decide +kernel), if_pos rfl]
  rw [h, h2, h2, h2]
  exact ⟨rfl, by decide +kernel, rfl⟩

end PySwitch.Props
