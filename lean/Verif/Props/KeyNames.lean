import Verif.Spec.KeyNames
import Verif.Props.MappingNames
import Verif.Props.MessageNames
/-!
C206: the names shown for actions which send keys or custom messages.
-/
namespace PySwitch.Props
open PySwitch.KeyNames
open PySwitch.MappingNames (removeAll given)
open PySwitch.Properties (Text lit)

namespace C206
open Spec

/-- What follows the first two characters of the searched text. -/
def rest : Text := ['y', 'c', 'o', 'd', 'e', '.']

theorem keycode_text : lit "Keycode." = 'K' :: 'e' :: rest := by decide +kernel

theorem skip (c : Char) (cs : Text) (h : cs.head? ≠ some 'e') : removeAll ('K' :: 'e' :: rest) 0 (c :: cs) = c :: removeAll ('K' :: 'e' :: rest) 0 cs := by
  conv => lhs; unfold removeAll
  rw [if_neg]
  intro x
  cases cs with
  | nil => simp [List.isPrefixOf] at x
  | cons d ds =>
    simp only [List.isPrefixOf, Bool.and_eq_true, beq_iff_eq] at x
    apply h
    rw [← x.2.1]; rfl

/-- A text without the small letter e stays. -/
theorem keep (n r : Text) (hn : 'e' ∉ n) (hr : r.head? ≠ some 'e') : removeAll ('K' :: 'e' :: rest) 0 (n ++ r) = n ++ removeAll ('K' :: 'e' :: rest) 0 r := by
  induction n with
  | nil => rfl
  | cons c n ih =>
    have ih := ih (fun h => hn (List.mem_cons_of_mem _ h))
    rw [List.cons_append, skip, ih]; rfl
    cases n with
    | nil => exact hr
    | cons d n => intro h; apply hn; simp at h; simp [h]

theorem cut (r : Text) : removeAll ('K' :: 'e' :: rest) 0 (('K' :: 'e' :: rest) ++ r) = removeAll ('K' :: 'e' :: rest) 0 r := by
  have := C203.removeAll_head ('K' :: 'e' :: rest) r (by simp)
  exact this

theorem no_e (n : Text) (h : Key n) : 'e' ∉ n := by
  intro m
  rcases h.2 _ m with h | h | h <;> revert h <;> decide

theorem commas_keys (ks : List Text) (h : ∀ k ∈ ks, Key k) (r : Text) (hr : r.head? ≠ some 'e') :
    removeAll ('K' :: 'e' :: rest) 0 (commas (ks.map (('K' :: 'e' :: rest) ++ ·)) ++ r) = commas ks ++ removeAll ('K' :: 'e' :: rest) 0 r := by
  have sep : lit ", " = [',', ' '] := by decide +kernel
  induction ks with
  | nil => rfl
  | cons k ks ih =>
    have ih := ih (fun x hx => h x (List.mem_cons_of_mem _ hx))
    have hk := no_e k (h k List.mem_cons_self)
    cases ks with
    | nil =>
      simp only [List.map_cons, List.map_nil, commas]
      rw [List.append_assoc, cut, keep k r hk hr]
    | cons l ls =>
      simp only [List.map_cons, commas] at ih ⊢
      rw [sep]
      rw [List.append_assoc, List.append_assoc, List.append_assoc, cut, keep k _ hk (by simp)]
      have : ([',', ' '] : Text) ++ (commas ((('K' :: 'e' :: rest) ++ l) :: ls.map (('K' :: 'e' :: rest) ++ ·)) ++ r) = ',' :: ' ' :: (commas ((('K' :: 'e' :: rest) ++ l) :: ls.map (('K' :: 'e' :: rest) ++ ·)) ++ r) := rfl
      rw [this, skip _ _ (by simp), skip, ih]
      · simp
      · cases ls <;> simp [commas]

/-- Keys have no brackets. -/
theorem clean (c : Char) (hc : c = '[' ∨ c = ']' ∨ c = '(' ∨ c = ')') (ks : List Text) (h : ∀ k ∈ ks, Key k) : c ∉ commas ks := by
  have sep : lit ", " = [',', ' '] := by decide +kernel
  have one : ∀ k ∈ ks, c ∉ k := by
    intro k hk m
    rcases hc with rfl | rfl | rfl | rfl <;> rcases (h k hk).2 _ m with x | x | x <;> revert x <;> decide
  clear h
  induction ks with
  | nil => simp [commas]
  | cons k ks ih =>
    have ih := ih (fun x hx => one x (List.mem_cons_of_mem _ hx))
    have hk := one k List.mem_cons_self
    cases ks with
    | nil => simpa [commas] using hk
    | cons l ls =>
      simp only [commas] at ih ⊢
      rw [sep]
      intro m
      simp only [List.mem_append, List.mem_cons, List.not_mem_nil, or_false] at m
      rcases m with (m | m | m) | m
      · exact hk m
      · subst m; simp at hc
      · subst m; simp at hc
      · exact ih m

theorem filter_id (c : Char) (t : Text) (h : c ∉ t) : removeChar c t = t := by
  unfold removeChar
  rw [List.filter_eq_self]
  intro x hx
  simp only [bne_iff_ne, ne_eq]
  rintro rfl
  exact h hx

theorem format (ks : List Text) (h : ∀ k ∈ ks, Key k) (code : Text) (hc : Code ks code) : formatKeycodes code = commas ks := by
  have c1 := clean '[' (by simp) ks h
  have c2 := clean ']' (by simp) ks h
  have c3 := clean '(' (by simp) ks h
  have c4 := clean ')' (by simp) ks h
  have b1 : lit "[" = ['['] := by decide +kernel
  have b2 : lit "]" = [']'] := by decide +kernel
  have b3 : lit "(" = ['('] := by decide +kernel
  have b4 : lit ")" = [')'] := by decide +kernel
  have e1 : removeAll ('K' :: 'e' :: rest) 0 [']'] = [']'] := by decide +kernel
  have e2 : removeAll ('K' :: 'e' :: rest) 0 [')'] = [')'] := by decide +kernel
  unfold formatKeycodes
  rw [keycode_text]
  have head : ∀ ls : List Text, (commas (ls.map (('K' :: 'e' :: rest) ++ ·))).head? ≠ some 'e' := by
    intro ls
    cases ls with
    | nil => simp [commas]
    | cons l ls => cases ls <;> simp [commas]
  cases hc with
  | one k =>
    rw [keycode_text, cut]
    have := keep k [] (no_e k (h k List.mem_cons_self)) (by simp)
    rw [List.append_nil] at this
    rw [this]
    simp only [removeAll, List.append_nil]
    simp only [commas] at c1 c2 c3 c4 ⊢
    rw [filter_id _ _ c1, filter_id _ _ c2, filter_id _ _ c3, filter_id _ _ c4]
  | list =>
    rw [keycode_text, b1, b2, List.append_assoc, List.cons_append, List.nil_append, skip, commas_keys ks h _ (by simp), e1]
    · have : removeChar '[' ('[' :: (commas ks ++ [']'])) = commas ks ++ [']'] := by
        have := filter_id '[' (commas ks ++ [']']) (by simp [c1])
        unfold removeChar at this ⊢
        rw [List.filter_cons_of_neg (by simp), this]
      rw [this]
      have : removeChar ']' (commas ks ++ [']']) = commas ks := by
        have := filter_id ']' (commas ks) c2
        unfold removeChar at this ⊢
        rw [List.filter_append, this]; simp
      rw [this, filter_id _ _ c3, filter_id _ _ c4]
    · have := head ks
      cases hh : commas (ks.map (('K' :: 'e' :: rest) ++ ·)) with
      | nil => simp
      | cons x xs => rw [hh] at this; simpa using this
  | tuple =>
    rw [keycode_text, b3, b4, List.append_assoc, List.cons_append, List.nil_append, skip, commas_keys ks h _ (by simp), e2]
    · have n1 : '[' ∉ '(' :: (commas ks ++ [')']) := by simp [c1]
      have n2 : ']' ∉ '(' :: (commas ks ++ [')']) := by simp [c2]
      rw [filter_id _ _ n1, filter_id _ _ n2]
      have : removeChar '(' ('(' :: (commas ks ++ [')'])) = commas ks ++ [')'] := by
        have := filter_id '(' (commas ks ++ [')']) (by simp [c3])
        unfold removeChar at this ⊢
        rw [List.filter_cons_of_neg (by simp), this]
      rw [this]
      have := filter_id ')' (commas ks) c4
      unfold removeChar at this ⊢
      rw [List.filter_append, this]; simp
    · have := head ks
      cases hh : commas (ks.map (('K' :: 'e' :: rest) ++ ·)) with
      | nil => simp
      | cons x xs => rw [hh] at this; simpa using this

theorem commas_join (ks : List Text) : commas ks = MessageNames.join ks := by
  have sep : lit ", " = [',', ' '] := by decide +kernel
  induction ks with
  | nil => rfl
  | cons k ks ih =>
    cases ks with
    | nil => rfl
    | cons l ls => simp only [commas, MessageNames.join] at ih ⊢; rw [sep, ih]; simp

theorem given_code (ks : List Text) (code : Text) (hc : Code ks code) : given (some code) = some code := by
  unfold given
  simp only [Option.bind_some]
  rw [if_neg]
  have n : lit "None" = ['N', 'o', 'n', 'e'] := by decide +kernel
  have b1 : lit "[" = ['['] := by decide +kernel
  have b3 : lit "(" = ['('] := by decide +kernel
  rw [n]
  cases hc with
  | one k => rw [keycode_text]; simp
  | list => rw [b1]; simp
  | tuple => rw [b3]; simp

end C206
open C206

/-- C206: an action which sends keys shows the names of these keys, separated by commas, whether they are given as one key, as a list or as a tuple. -/
theorem C206_keys (keys : List Text) (ok : ∀ k ∈ keys, Spec.Key k) (code : Text) (given : Spec.Code keys code) :
    keyboard (some code) = lit "USB Key " ++ Spec.commas keys ∧ keyboardShort (some code) = lit "USB Key " ++ Spec.commas keys := by
  unfold keyboard keyboardShort
  rw [given_code _ _ given]
  simp only
  rw [format keys ok code given]
  exact ⟨rfl, rfl⟩

/-- C206: actions which send other keys, or the keys in another order, have other names. -/
theorem C206_distinct (keys1 keys2 : List Text) (ok1 : ∀ k ∈ keys1, Spec.Key k) (ok2 : ∀ k ∈ keys2, Spec.Key k) (code1 code2 : Text) (given1 : Spec.Code keys1 code1) (given2 : Spec.Code keys2 code2)
    (same : keyboard (some code1) = keyboard (some code2)) : keys1 = keys2 := by
  rw [(C206_keys keys1 ok1 code1 given1).1, (C206_keys keys2 ok2 code2 given2).1] at same
  have e := List.append_cancel_left same
  rw [commas_join, commas_join] at e
  have c : ∀ k, Spec.Key k → k ≠ [] ∧ ',' ∉ k := by
    intro k hk
    refine ⟨hk.1, fun m => ?_⟩
    rcases hk.2 _ m with x | x | x <;> revert x <;> decide
  exact C204.join_inj _ _ (fun t ht => c t (ok1 t ht)) (fun t ht => c t (ok2 t ht)) e

/-- C206: an action for a custom message shows its text, if it has one and the text contains no quotes; otherwise it is shown as a custom message. -/
theorem C206_custom_partial (text : Text) (noQuotes : '\'' ∉ text ∧ '"' ∉ text) :
    (text ≠ [] → customMessage (some ('\'' :: (text ++ ['\'']))) = text ∧ customMessage (some ('"' :: (text ++ ['"']))) = text)
    ∧ customMessage (some (lit "''")) = lit "Custom MIDI Message" ∧ customMessage (some (lit "None")) = lit "Custom MIDI Message" ∧ customMessage none = lit "Custom MIDI Message" := by
  refine ⟨?_, by decide +kernel, by decide +kernel, by decide +kernel⟩
  intro ne
  have n : lit "None" = ['N', 'o', 'n', 'e'] := by decide +kernel
  have q : lit "''" = ['\'', '\''] := by decide +kernel
  have f1 := filter_id '\'' text noQuotes.1
  have f2 := filter_id '"' text noQuotes.2
  constructor
  · unfold customMessage given
    simp only [Option.bind_some]
    rw [if_neg (by rw [n]; simp)]
    simp only
    rw [if_neg]
    · unfold stripQuotes
      have : removeChar '"' ('\'' :: (text ++ ['\''])) = '\'' :: (text ++ ['\'']) := filter_id _ _ (by simp [noQuotes.2])
      rw [this]
      unfold removeChar at f1 ⊢
      rw [List.filter_cons_of_neg (by simp), List.filter_append, f1]; simp
    · rw [q]
      intro e
      simp only [List.cons.injEq, true_and] at e
      cases text with
      | nil => exact ne rfl
      | cons c cs => simp at e
  · unfold customMessage given
    simp only [Option.bind_some]
    rw [if_neg (by rw [n]; simp)]
    simp only
    rw [if_neg (by rw [q]; simp)]
    unfold stripQuotes
    have : removeChar '"' ('"' :: (text ++ ['"'])) = text := by
      unfold removeChar at f2 ⊢
      rw [List.filter_cons_of_neg (by simp), List.filter_append, f2]; simp
    rw [this, f1]

/-- C206: without keys it is shown as the keyboard. -/
theorem C206_none (keycodes : Option Text) (missing : keycodes = none ∨ keycodes = some (lit "None")) : keyboard keycodes = lit "USB Keyboard (HID)" ∧ keyboardShort keycodes = lit "USB Key" := by
  rcases missing with h | h <;> subst h <;> decide +kernel

example : Spec.Key (lit "LEFT_ARROW") ∧ Spec.Key (lit "KEYPAD_7") ∧ Spec.Code [lit "LEFT_ARROW", lit "KEYPAD_7"] (lit "[Keycode.LEFT_ARROW, Keycode.KEYPAD_7]")
    ∧ keyboard (some (lit "[Keycode.LEFT_ARROW, Keycode.KEYPAD_7]")) = lit "USB Key LEFT_ARROW, KEYPAD_7" := by
  refine ⟨⟨by decide +kernel, by decide +kernel⟩, ⟨by decide +kernel, by decide +kernel⟩, ?_, by decide +kernel⟩
  have : lit "[Keycode.LEFT_ARROW, Keycode.KEYPAD_7]" = lit "[" ++ Spec.commas ([lit "LEFT_ARROW", lit "KEYPAD_7"].map (lit "Keycode." ++ ·)) ++ lit "]" := by decide +kernel
  rw [this]
  exact .list _

example : customMessage (some (lit "'Solo'")) = lit "Solo" := by decide +kernel

/-- C206, witness: quotes inside of the text are lost, and an empty text in double quotes gives an empty name. -/
theorem C206_quotes_witness : customMessage (some (lit "\"It's\"")) = lit "Its" ∧ customMessage (some (lit "\"\"")) = [] := by decide +kernel

end PySwitch.Props
