import Verif.Model.Links

/-! Lemmas on the encoding and decoding of addresses and on the routes. -/

namespace PySwitch.Links

theorem hexValue_hexDigit : ∀ d, d < 16 → hexValue (hexDigit d) = some d := by decide

theorem tokens_escape (b : Nat) (hb : b < 256) (s : Text) :
    tokens (escape b ++ s) = (tokens s).map (.octet b (hexDigit (b / 16)) (hexDigit (b % 16)) :: ·) := by
  have h1 := hexValue_hexDigit (b / 16) (by omega)
  have h2 := hexValue_hexDigit (b % 16) (by omega)
  have h3 : 16 * (b / 16) + b % 16 = b := by omega
  simp [escape, tokens, h1, h2, h3]

theorem percent_not_plain : plain '%' = false := by decide

theorem tokens_char (c : Char) (h : c ≠ '%') (s : Text) : tokens (c :: s) = (tokens s).map (.char c :: ·) := by
  rw [tokens.eq_def]; dsimp only; rw [if_neg h]

/-- The tokens of an octet. -/
def tok (b : Nat) : Tok := .octet b (hexDigit (b / 16)) (hexDigit (b % 16))

theorem tokens_octets (bs : List Nat) (h : ∀ b ∈ bs, b < 256) (s : Text) :
    tokens (bs.flatMap escape ++ s) = (tokens s).map (bs.map tok ++ ·) := by
  induction bs with
  | nil => simp
  | cons b bs ih =>
    have hb := h b (by simp)
    have ih := ih (fun x hx => h x (by simp [hx]))
    rw [List.flatMap_cons, List.append_assoc, tokens_escape b hb, ih]
    cases tokens s <;> simp [tok]

theorem valid (c : Char) : c.toNat < 0xD800 ∨ (0xDFFF < c.toNat ∧ c.toNat < 0x110000) := c.valid

theorem utf8_lt (c : Char) : ∀ b ∈ utf8 c.toNat, b < 256 := by
  have hv := valid c
  intro b hb
  unfold utf8 at hb
  split at hb
  · simp at hb; omega
  · split at hb
    · simp at hb; omega
    · split at hb
      · simp at hb; omega
      · simp at hb; omega

theorem ofNat_toNat (c : Char) : Char.ofNat c.toNat = c := Char.ofNat_toNat c

theorem tail_octet (x : Nat) (h : x < 64) (a b : Char) : tail (.octet (128 + x) a b) = some x := by
  rw [tail, if_pos (by omega), Nat.add_sub_cancel_left]

theorem point_char (low : Nat) (c : Char) (h : low ≤ c.toNat) : point low c.toNat = some c := by
  have hv := valid c
  rw [point, if_pos (by omega), ofNat_toNat]

theorem decodeToks_utf8 (keep : Text) (c : Char) (h : keep.contains c = false) (ts : List Tok) :
    decodeToks keep ((utf8 c.toNat).map tok ++ ts) = (decodeToks keep ts).map (c :: ·) := by
  have hv := valid c
  have hc := ofNat_toNat c
  have hp := fun low => point_char low c
  generalize c.toNat = n at hv hc hp
  unfold utf8
  split
  · rename_i h1
    simp only [List.map_cons, List.map_nil, tok, List.cons_append, List.nil_append]
    rw [decodeToks.eq_def]; dsimp only
    rw [if_pos h1, hc, h]
    simp
  · split
    · simp only [List.map_cons, List.map_nil, tok, List.cons_append, List.nil_append]
      rw [decodeToks.eq_def]; dsimp only
      rw [if_neg (by omega), if_pos (by omega), tail_octet _ (by omega)]
      have e2 : (192 + n / 64 - 192) * 64 + n % 64 = n := by omega
      simp only [Option.bind_eq_bind, Option.bind_some]
      rw [e2, hp 0x80 (by omega)]
      cases decodeToks keep ts <;> simp
    · split
      · simp only [List.map_cons, List.map_nil, tok, List.cons_append, List.nil_append]
        rw [decodeToks.eq_def]; dsimp only
        rw [if_neg (by omega), if_neg (by omega), if_pos (by omega), tail_octet _ (by omega), tail_octet _ (by omega)]
        have e2 : (224 + n / 4096 - 224) * 4096 + n / 64 % 64 * 64 + n % 64 = n := by omega
        simp only [Option.bind_eq_bind, Option.bind_some]
        rw [e2, hp 0x800 (by omega)]
        cases decodeToks keep ts <;> simp
      · simp only [List.map_cons, List.map_nil, tok, List.cons_append, List.nil_append]
        rw [decodeToks.eq_def]; dsimp only
        rw [if_neg (by omega), if_neg (by omega), if_neg (by omega), if_pos (by omega), tail_octet _ (by omega),
          tail_octet _ (by omega), tail_octet _ (by omega)]
        have e2 : (240 + n / 262144 - 240) * 262144 + n / 4096 % 64 * 4096 + n / 64 % 64 * 64 + n % 64 = n := by
          omega
        simp only [Option.bind_eq_bind, Option.bind_some]
        rw [e2, hp 0x10000 (by omega)]
        cases decodeToks keep ts <;> simp

theorem plain_ne {c : Char} (h : plain c = true) : c ≠ '%' := by
  intro e; subst e; rw [percent_not_plain] at h; cases h

/-- Decoding a text of which some characters are encoded and the others are replaced by ones other than `%`. -/
theorem decode_flatMap (keep : Text) (hk : ∀ c ∈ keep, plain c = true) (g : Char → Text) (r : Char → Char) (s : Text)
    (hg : ∀ c ∈ s, (g c = encodeChar c ∧ r c = c) ∨ (g c = [r c] ∧ r c ≠ '%')) :
    decode keep (s.flatMap g) = some (s.map r) := by
  unfold decode
  have : ∃ ts, tokens (s.flatMap g) = some ts ∧ decodeToks keep ts = some (s.map r) := by
    induction s with
    | nil => exact ⟨[], rfl, rfl⟩
    | cons c s ih =>
      obtain ⟨ts, h1, h2⟩ := ih (fun x hx => hg x (by simp [hx]))
      have one : ∀ d, d ≠ '%' → ∃ us, tokens ([d] ++ s.flatMap g) = some us ∧ decodeToks keep us = some (d :: s.map r) := by
        intro d hd
        refine ⟨.char d :: ts, ?_, ?_⟩
        · rw [List.cons_append, List.nil_append, tokens_char d hd, h1]; rfl
        · rw [decodeToks, h2]; rfl
      rw [List.flatMap_cons, List.map_cons]
      rcases hg c (by simp) with ⟨h3, h4⟩ | ⟨h3, h4⟩
      · rw [h3, h4]
        unfold encodeChar
        split
        · rename_i hp
          exact one c (plain_ne hp)
        · rename_i hp
          refine ⟨(utf8 c.toNat).map tok ++ ts, ?_, ?_⟩
          · rw [tokens_octets _ (utf8_lt c), h1]; rfl
          · rw [decodeToks_utf8, h2]
            · rfl
            · cases hc : keep.contains c with
              | false => rfl
              | true => exact absurd (hk c (by simpa using hc)) hp
      · rw [h3]; exact one (r c) h4
  obtain ⟨ts, h1, h2⟩ := this
  rw [h1, Option.bind_some, h2]

/-- Decoding undoes `encodeURI`, whatever characters stay escaped, if `encodeURI` escapes none of them. -/
theorem decode_encodeURI (keep : Text) (hk : ∀ c ∈ keep, plain c = true) (s : Text) :
    decode keep (encodeURI s) = some s := by
  have := decode_flatMap keep hk encodeChar id s (fun c _ => Or.inl ⟨rfl, rfl⟩)
  rwa [List.map_id] at this

theorem reserved_plain : ∀ c ∈ reserved, plain c = true := by decide

theorem decodeURI_encodeURI (s : Text) : decodeURI (encodeURI s) = some s :=
  decode_encodeURI _ reserved_plain s

theorem decodeURIComponent_encodeURI (s : Text) : decodeURIComponent (encodeURI s) = some s :=
  decode_encodeURI _ (by simp) s

/-- A text with no escapes is its own decoding. -/
theorem decode_id (keep s : Text) (h : '%' ∉ s) : decode keep s = some s := by
  unfold decode
  have : ∃ ts, tokens s = some ts ∧ decodeToks keep ts = some s := by
    induction s with
    | nil => exact ⟨[], rfl, rfl⟩
    | cons c s ih =>
      obtain ⟨ts, h1, h2⟩ := ih (by simp at h; exact h.2)
      refine ⟨.char c :: ts, ?_, ?_⟩
      · rw [tokens_char c (by simp at h; exact fun e => h.1 e.symm), h1]; rfl
      · rw [decodeToks, h2]; rfl
  obtain ⟨ts, h1, h2⟩ := this
  rw [h1, Option.bind_some, h2]

theorem hexDigit_not_reserved : ∀ d, d < 16 → hexDigit d ∉ reserved := by decide

theorem mem_escape {x : Char} (hx : x ∈ reserved) {b : Nat} (hb : b < 256) : x ∉ escape b := by
  intro h
  simp only [escape, List.mem_cons, List.not_mem_nil, or_false] at h
  rcases h with h | h | h
  · subst h; exact absurd hx (by decide)
  · subst h; exact hexDigit_not_reserved _ (by omega) hx
  · subst h; exact hexDigit_not_reserved _ (by omega) hx

/-- The characters with a meaning in an address are in the encoded text if and only if they are in the text. -/
theorem mem_encodeURI {x : Char} (hx : x ∈ reserved) (s : Text) : x ∈ encodeURI s ↔ x ∈ s := by
  unfold encodeURI
  rw [List.mem_flatMap]
  constructor
  · rintro ⟨c, hc, h⟩
    unfold encodeChar at h
    split at h
    · rw [List.mem_singleton] at h; rw [h]; exact hc
    · rw [List.mem_flatMap] at h
      obtain ⟨b, hb, h⟩ := h
      exact absurd h (mem_escape hx (utf8_lt c b hb))
  · intro h
    exact ⟨x, h, by rw [encodeChar, if_pos (reserved_plain x hx)]; simp⟩

theorem encodeURI_append (a b : Text) : encodeURI (a ++ b) = encodeURI a ++ encodeURI b := List.flatMap_append

theorem encodeURI_plain (a : Text) (h : ∀ c ∈ a, plain c = true) : encodeURI a = a := by
  induction a with
  | nil => rfl
  | cons c a ih =>
    rw [show encodeURI (c :: a) = encodeChar c ++ encodeURI a from List.flatMap_cons,
      ih (fun x hx => h x (by simp [hx])), encodeChar, if_pos (h c (by simp))]
    rfl

/-- `+` replaced by a space. -/
def spaced (c : Char) : Char := if c = '+' then ' ' else c

theorem spaced_encodeChar (c : Char) :
    (encodeChar c).map spaced = (if c = '+' then [' '] else encodeChar c) := by
  unfold encodeChar
  split
  · rename_i h
    by_cases hc : c = '+'
    · simp [spaced, hc]
    · simp [spaced, hc]
  · rename_i h
    have hc : c ≠ '+' := by intro e; subst e; exact h (by decide)
    rw [if_neg hc]
    conv => rhs; rw [← List.map_id ((utf8 c.toNat).flatMap escape)]
    apply List.map_congr_left
    intro x hx
    rw [List.mem_flatMap] at hx
    obtain ⟨b, hb, hx⟩ := hx
    have : x ≠ '+' := by
      intro e; subst e; exact mem_escape (by decide) (utf8_lt c b hb) hx
    rw [spaced, if_neg this]; rfl

theorem spaced_encodeURI (s : Text) :
    (encodeURI s).map spaced = s.flatMap (fun c => if c = '+' then [' '] else encodeChar c) := by
  unfold encodeURI
  rw [List.map_flatMap]
  congr 1
  funext c
  exact spaced_encodeChar c

/-- Decoding an encoded text in which `+` has been replaced by a space. -/
theorem decode_spaced (keep : Text) (hk : ∀ c ∈ keep, plain c = true) (s : Text) :
    decode keep ((encodeURI s).map spaced) = some (s.map spaced) := by
  rw [spaced_encodeURI]
  apply decode_flatMap keep hk
  intro c _
  by_cases hc : c = '+'
  · right; subst hc; exact ⟨rfl, by decide⟩
  · left; rw [if_neg hc]; exact ⟨rfl, by rw [spaced, if_neg hc]⟩

/-- The second `encodeURI` of an encoded text is undone by sammy, up to `+`. -/
theorem sammyDecode_encodeURI (s : Text) : sammyDecode (encodeURI s) = some (s.map spaced) :=
  decode_spaced [] (by simp) s

theorem decodeURI_spaced (s : Text) : decodeURI ((encodeURI s).map spaced) = some (s.map spaced) :=
  decode_spaced reserved reserved_plain s

theorem routablePath_id (s : Text) (h : '?' ∉ s) : routablePath s = s := by
  induction s with
  | nil => rfl
  | cons c s ih =>
    simp at h
    rw [routablePath, if_neg (fun e => h.1 e.1.symm), ih h.2]

/-- A `?` with a `#` after it cuts off nothing. -/
theorem routablePath_hash (a s : Text) : routablePath (a ++ '#' :: s) = a ++ '#' :: routablePath s := by
  induction a with
  | nil => rw [List.nil_append, routablePath, if_neg (by simp)]; rfl
  | cons c a ih =>
    rw [List.cons_append, routablePath, if_neg (by simp), ih]; rfl

theorem after_none (pat s : Text) (h : '#' ∉ s) : after ('#' :: pat) s = none := by
  induction s with
  | nil => rfl
  | cons c s ih =>
    simp at h
    rw [after, if_neg, ih h.2]
    rw [List.isPrefixOf, show ('#' == c) = false from by simpa using h.1]; simp

theorem after_skip (pat a s : Text) (h : '#' ∉ a) : after ('#' :: pat) (a ++ s) = after ('#' :: pat) s := by
  induction a with
  | nil => rfl
  | cons c a ih =>
    simp at h
    rw [List.cons_append, after, if_neg, ih h.2]
    rw [List.isPrefixOf, show ('#' == c) = false from by simpa using h.1]; simp

theorem after_hit (pat s : Text) : after ('#' :: pat) ('#' :: (pat ++ s)) = some s := by
  rw [after, if_pos]
  · simp
  · simp

theorem after_miss (pat s : Text) (h : '#' ∉ s) (hp : pat.isPrefixOf s = false) :
    after ('#' :: pat) ('#' :: s) = none := by
  rw [after, if_neg, after_none pat s h]
  rw [List.isPrefixOf]; simp [hp]

/-- A pattern which begins with the only `#` of the path fits its end only if it is the end from there. -/
theorem suffix_hash {pat a s : Text} (hp : '#' ∉ pat) (h : '#' ∉ s) (hs : ('#' :: pat) <:+ (a ++ '#' :: s)) :
    pat = s := by
  have h2 : ('#' :: s) <:+ (a ++ '#' :: s) := List.suffix_append _ _
  rcases List.suffix_or_suffix_of_suffix hs h2 with h3 | h3
  · rcases List.suffix_cons_iff.mp h3 with h4 | h4
    · injection h4
    · exact absurd (h4.subset (by simp)) h
  · rcases List.suffix_cons_iff.mp h3 with h4 | h4
    · injection h4 with _ h5; exact h5.symm
    · exact absurd (h4.subset (by simp)) hp

theorem not_suffix {pat a s : Text} (hp : '#' ∉ pat) (h : '#' ∉ s) (hne : pat ≠ s) :
    ('#' :: pat).isSuffixOf (a ++ '#' :: s) = false := by
  cases he : ('#' :: pat).isSuffixOf (a ++ '#' :: s) with
  | false => rfl
  | true => exact absurd (suffix_hash hp h (by simpa using he)) hne

end PySwitch.Links
