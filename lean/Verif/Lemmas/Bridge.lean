import Verif.Model.Bridge

/-! Lemmas about the conversions of the file transfer. -/

namespace PySwitch.Lemmas.Bridge
open PySwitch.Bridge

/-! ### Bits -/

theorem bit_test (b k : Nat) : ((b &&& (1 <<< k)) == (1 <<< k)) = b.testBit k := by
  rw [Nat.one_shiftLeft, Bool.eq_iff_iff, beq_iff_eq]
  constructor
  · intro h
    have := congrArg (·.testBit k) h
    simpa [Nat.testBit_and, Nat.testBit_two_pow] using this
  · intro h
    apply Nat.eq_of_testBit_eq
    intro i
    rw [Nat.testBit_and, Nat.testBit_two_pow]
    by_cases hi : k = i
    · subst hi; simp [h]
    · simp [hi]

theorem bitsOf_eq (w b : Nat) : bitsOf w b = (List.range w).map fun i => b.testBit (w - 1 - i) := by
  simp [bitsOf, bit_test]

@[simp] theorem bitsOf_length (w b : Nat) : (bitsOf w b).length = w := by simp [bitsOf]

theorem bitsOf_inj {w a b : Nat} (ha : a < 2 ^ w) (hb : b < 2 ^ w) (h : bitsOf w a = bitsOf w b) : a = b := by
  apply Nat.eq_of_testBit_eq
  intro i
  by_cases hi : i < w
  · have := congrArg (fun l => l[w - 1 - i]?) h
    simp only [bitsOf_eq, List.getElem?_map] at this
    rw [List.getElem?_range (by omega)] at this
    have e : w - 1 - (w - 1 - i) = i := by omega
    simpa [e] using this
  · rw [Nat.testBit_lt_two_pow (Nat.lt_of_lt_of_le ha (Nat.pow_le_pow_right (by omega) (by omega))),
      Nat.testBit_lt_two_pow (Nat.lt_of_lt_of_le hb (Nat.pow_le_pow_right (by omega) (by omega)))]

/-- One step of putting bits together. -/
theorem or_testBit (to : Nat) (l : List (Bool × Nat)) (acc j : Nat) :
    (l.foldl (fun entry e => if e.1 then entry ||| (1 <<< (to - 1 - e.2)) else entry) acc).testBit j =
      (acc.testBit j || l.any fun e => e.1 && (to - 1 - e.2 == j)) := by
  induction l generalizing acc with
  | nil => simp
  | cons e l ih =>
    simp only [List.foldl_cons, ih, List.any_cons]
    cases h : e.1
    · simp
    · simp only [if_true, Nat.testBit_or, Nat.one_shiftLeft, Nat.testBit_two_pow, Bool.true_and, Bool.or_assoc]
      congr 1

theorem flush_testBit (to : Nat) (buf : List Bool) (h : buf.length ≤ to) (j : Nat) :
    (flush to buf).testBit j = (decide (j < to) && (buf ++ List.replicate (to - buf.length) false).getD (to - 1 - j) false) := by
  rw [flush, or_testBit]
  generalize hl : buf ++ List.replicate (to - buf.length) false = l
  have hlen : l.length = to := by rw [← hl]; simp; omega
  simp only [Nat.zero_testBit, Bool.false_or]
  rw [Bool.eq_iff_iff]
  simp only [List.any_eq_true, Bool.and_eq_true, beq_iff_eq, decide_eq_true_iff]
  constructor
  · rintro ⟨⟨x, i⟩, hm, hx, hi⟩
    have hm := List.mem_zipIdx_iff_getElem?.1 hm
    obtain ⟨hi', hx'⟩ := List.getElem?_eq_some_iff.1 hm
    simp only at hx hi hx' hi'
    refine ⟨by omega, ?_⟩
    have : to - 1 - j = i := by omega
    rw [this, List.getD_eq_getElem?_getD, hm]
    simpa using hx
  · rintro ⟨hj, hg⟩
    have hlt : to - 1 - j < l.length := by omega
    refine ⟨(l[to - 1 - j], to - 1 - j), ?_, ?_, by simp; omega⟩
    · rw [List.mem_zipIdx_iff_getElem?]
      exact List.getElem?_eq_getElem hlt
    · rw [List.getD_eq_getElem?_getD, List.getElem?_eq_getElem hlt] at hg
      simpa using hg

theorem flush_lt (to : Nat) (buf : List Bool) (h : buf.length ≤ to) : flush to buf < 2 ^ to := by
  apply Nat.lt_pow_two_of_testBit
  intro i hi
  rw [flush_testBit to buf h]
  have : ¬i < to := by omega
  simp [this]

theorem flush_bits (to : Nat) (buf : List Bool) (h : buf.length ≤ to) :
    bitsOf to (flush to buf) = buf ++ List.replicate (to - buf.length) false := by
  apply List.ext_getElem?
  intro i
  rw [bitsOf_eq, List.getElem?_map]
  by_cases hi : i < to
  · rw [List.getElem?_range hi]
    simp only [Option.map_some, flush_testBit to buf h]
    have e : to - 1 - (to - 1 - i) = i := by omega
    have hj : to - 1 - i < to := by omega
    simp only [e, hj, decide_true, Bool.true_and]
    have hlt : i < (buf ++ List.replicate (to - buf.length) false).length := by simp; omega
    rw [List.getD_eq_getElem?_getD, List.getElem?_eq_getElem hlt]
    rfl
  · rw [List.getElem?_eq_none (by simp; omega), List.getElem?_eq_none (by simp; omega)]
    rfl

/-- Bits of a list of bytes of the given width. -/
abbrev bits (w : Nat) (l : Bytes) : List Bool := l.flatMap (bitsOf w)

theorem bits_length (w : Nat) (l : Bytes) : (bits w l).length = w * l.length := by
  induction l with
  | nil => rfl
  | cons a l ih =>
    simp only [bits, List.flatMap_cons, List.length_append, bitsOf_length, List.length_cons]
    rw [show (List.flatMap (bitsOf w) l).length = w * l.length from ih, Nat.mul_add]
    omega

theorem bits_inj {w : Nat} : ∀ {l m : Bytes}, (∀ b ∈ l, b < 2 ^ w) → (∀ b ∈ m, b < 2 ^ w) → l.length = m.length →
    bits w l = bits w m → l = m
  | [], [], _, _, _, _ => rfl
  | [], _ :: _, _, _, h, _ => by simp at h
  | _ :: _, [], _, _, h, _ => by simp at h
  | a :: l, b :: m, hl, hm, h, he => by
    simp only [bits, List.flatMap_cons] at he
    have := List.append_inj he (by simp)
    rw [bitsOf_inj (hl a (by simp)) (hm b (by simp)) this.1,
      bits_inj (fun x hx => hl x (by simp [hx])) (fun x hx => hm x (by simp [hx])) (by simpa using h) this.2]

theorem push_fold (to : Nat) (hto : 0 < to) (input : List Bool) : ∀ (st : Bytes × List Bool), st.2.length < to →
    (∀ b ∈ st.1, b < 2 ^ to) →
    bits to (input.foldl (pushBit to) st).1 ++ (input.foldl (pushBit to) st).2 = bits to st.1 ++ st.2 ++ input ∧
      (input.foldl (pushBit to) st).2.length < to ∧ ∀ b ∈ (input.foldl (pushBit to) st).1, b < 2 ^ to := by
  induction input with
  | nil => intro st h1 h2; simp [h1]; exact h2
  | cons x input ih =>
    intro st h1 h2
    simp only [List.foldl_cons]
    by_cases h : (st.2 ++ [x]).length = to
    · have hp : pushBit to st x = (st.1 ++ [flush to (st.2 ++ [x])], []) := by simp only [pushBit, h, if_true]
      rw [hp]
      obtain ⟨i1, i2, i3⟩ := ih (st.1 ++ [flush to (st.2 ++ [x])], []) (by simpa using hto) (by
        intro b hb
        rcases List.mem_append.1 hb with hb | hb
        · exact h2 b hb
        · simp at hb; subst hb; exact flush_lt to _ (by omega))
      refine ⟨?_, i2, i3⟩
      rw [i1]
      simp only [bits, List.flatMap_append, List.flatMap_cons, List.flatMap_nil, List.append_nil]
      rw [flush_bits to _ (by omega), h]
      simp
    · have hp : pushBit to st x = (st.1, st.2 ++ [x]) := by simp only [pushBit, h, if_false]
      rw [hp]
      obtain ⟨i1, i2, i3⟩ := ih (st.1, st.2 ++ [x]) (by simp at h ⊢; omega) h2
      refine ⟨?_, i2, i3⟩
      rw [i1]
      simp

/-- The bits stay the same; zeros are appended to fill up the last one. -/
theorem pack_bits (data : Bytes) : ∃ pad : Nat, pad < 7 ∧ bits 7 (packBytes data) = bits 8 data ++ List.replicate pad false ∧
    ∀ b ∈ packBytes data, b < 128 := by
  obtain ⟨h1, h2, h3⟩ := push_fold 7 (by omega) (bits 8 data) ([], []) (by simp) (by simp)
  simp only [packBytes, convertBitlength, Bool.true_and]
  generalize hst : (bits 8 data).foldl (pushBit 7) ([], []) = st at h1 h2 h3
  simp only [bits, List.flatMap_nil, List.nil_append] at h1
  by_cases h : st.2.length > 0
  · simp only [h, decide_true, if_true]
    refine ⟨7 - st.2.length, by omega, ?_, ?_⟩
    · simp only [bits, List.flatMap_append, List.flatMap_cons, List.flatMap_nil, List.append_nil]
      rw [flush_bits 7 _ (by omega), ← List.append_assoc, h1]
    · intro b hb
      rcases List.mem_append.1 hb with hb | hb
      · exact h3 b hb
      · simp at hb; subst hb; exact flush_lt 7 _ (by omega)
  · simp only [h, decide_false, if_false, Bool.false_eq_true]
    have : st.2 = [] := by cases hs : st.2 <;> simp_all
    refine ⟨0, by omega, ?_, h3⟩
    rw [this] at h1
    simpa [bits] using h1

theorem pack_lt (data : Bytes) : ∀ b ∈ packBytes data, b < 128 := (pack_bits data).choose_spec.2.2

theorem pack_length (data : Bytes) : (packBytes data).length = (8 * data.length + 6) / 7 := by
  obtain ⟨pad, h1, h2, _⟩ := pack_bits data
  have := congrArg List.length h2
  simp only [bits_length, List.length_append, List.length_replicate] at this
  omega

theorem unpack_bits (data : Bytes) : ∃ rest : List Bool, rest.length < 8 ∧ bits 8 (unpackBytes data) ++ rest = bits 7 data ∧
    ∀ b ∈ unpackBytes data, b < 256 := by
  obtain ⟨h1, h2, h3⟩ := push_fold 8 (by omega) (bits 7 data) ([], []) (by simp) (by simp)
  simp only [unpackBytes, convertBitlength, Bool.false_and, Bool.false_eq_true, if_false]
  exact ⟨_, h2, by simpa [bits] using h1, h3⟩

theorem unpack_pack (data : Bytes) (hd : ∀ b ∈ data, b < 256) : unpackBytes (packBytes data) = data := by
  obtain ⟨pad, h1, h2, _⟩ := pack_bits data
  obtain ⟨rest, r1, r2, r3⟩ := unpack_bits (packBytes data)
  rw [h2] at r2
  have hlen := congrArg List.length r2
  simp only [List.length_append, bits_length, List.length_replicate] at hlen
  have hl : (unpackBytes (packBytes data)).length = data.length := by omega
  have := List.append_inj r2 (by rw [bits_length, bits_length, hl])
  exact bits_inj r3 hd hl this.1

theorem pack_inj {a b : Bytes} (ha : ∀ x ∈ a, x < 256) (hb : ∀ x ∈ b, x < 256) (h : packBytes a = packBytes b) : a = b := by
  rw [← unpack_pack a ha, h, unpack_pack b hb]

/-! ### Numbers -/

theorem byte_at (num k : Nat) : (num &&& (0xff <<< (k * 8))) >>> (k * 8) = num / 2 ^ (k * 8) % 256 := by
  rw [Nat.shiftRight_and_distrib, Nat.shiftLeft_shiftRight, Nat.shiftRight_eq_div_pow]
  exact Nat.and_two_pow_sub_one_eq_mod _ 8

theorem number3 (num : Nat) : number2bytes num 3 = packBytes [num / 65536 % 256, num / 256 % 256, num % 256] := by
  have h2 := byte_at num 2
  have h1 := byte_at num 1
  have h0 := byte_at num 0
  simp only [Nat.reduceMul, Nat.reducePow, Nat.pow_zero, Nat.div_one] at h0 h1 h2
  simp only [number2bytes, show List.range 3 = [0, 1, 2] from rfl, List.map_cons, List.map_nil, Nat.reduceSub, Nat.reduceMul,
    h0, h1, h2]

theorem number2 (num : Nat) : number2bytes num 2 = packBytes [num / 256 % 256, num % 256] := by
  have h1 := byte_at num 1
  have h0 := byte_at num 0
  simp only [Nat.reduceMul, Nat.reducePow, Nat.pow_zero, Nat.div_one] at h0 h1
  simp only [number2bytes, show List.range 2 = [0, 1] from rfl, List.map_cons, List.map_nil, Nat.reduceSub, Nat.reduceMul,
    h0, h1]

@[simp] theorem number3_length (num : Nat) : (number2bytes num 3).length = 4 := by rw [number3, pack_length]; simp

@[simp] theorem number2_length (num : Nat) : (number2bytes num 2).length = 3 := by rw [number2, pack_length]; simp

theorem number_lt (num n : Nat) : ∀ b ∈ number2bytes num n, b < 128 := pack_lt _

theorem shl_small (a n : Nat) (ha : a < 256) (hn : n ≤ 16) : shl32 a n = ((a * 2 ^ n : Nat) : Int) := by
  have hm : n % 32 = n := by omega
  have h1 : a * 2 ^ n < 2 ^ 24 := by
    have h2 : a * 2 ^ n ≤ 255 * 2 ^ n := Nat.mul_le_mul (by omega) (Nat.le_refl _)
    have h3 : 255 * 2 ^ n ≤ 255 * 2 ^ 16 := Nat.mul_le_mul (Nat.le_refl _) (Nat.pow_le_pow_right (by omega) hn)
    omega
  simp only [shl32, hm]
  rw [Nat.mod_eq_of_lt (by omega), if_neg (by omega)]

theorem bytes2number3 (num : Nat) : bytes2number (number2bytes num 3) = ((num % 16777216 : Nat) : Int) := by
  rw [number3, bytes2number, unpack_pack _ (by intro b hb; simp at hb; rcases hb with h | h | h <;> omega)]
  simp only [List.zipIdx_cons, List.zipIdx_nil, List.foldl_cons, List.foldl_nil, List.length_cons, List.length_nil,
    Nat.reduceAdd, Nat.reduceSub, Nat.reduceMul, Nat.zero_add]
  rw [shl_small _ _ (by omega) (by omega), shl_small _ _ (by omega) (by omega), shl_small _ _ (by omega) (by omega)]
  omega

theorem number2_inj {a b : Nat} (ha : a < 65536) (hb : b < 65536) (h : number2bytes a 2 = number2bytes b 2) : a = b := by
  rw [number2, number2] at h
  have := pack_inj (by intro x hx; simp at hx; omega) (by intro x hx; simp at hx; omega) h
  simp at this
  omega

theorem number3_inj {a b : Nat} (ha : a < 16777216) (hb : b < 16777216) (h : number2bytes a 3 = number2bytes b 3) : a = b := by
  have := congrArg bytes2number h
  rw [bytes2number3, bytes2number3] at this
  omega

end PySwitch.Lemmas.Bridge
