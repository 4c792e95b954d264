import Verif.Lemmas.Bridge

/-! Lemmas about the checksum of the file transfer. -/

namespace PySwitch.Lemmas.Bridge
open PySwitch.Bridge

theorem crcBit_eq (c : Nat) (x : Bool) : crcBit c x = if c.testBit 0 ^^ x then (c >>> 1) ^^^ 0x6756 else c >>> 1 := by
  simp only [crcBit, Nat.testBit_zero]
  by_cases h : c % 2 = 1 <;> cases x <;> simp [h]

/-- Two runs differ by what the difference of the input does. -/
theorem crcBit_xor (a b : Nat) (x y : Bool) : crcBit a x ^^^ crcBit b y = crcBit (a ^^^ b) (x ^^ y) := by
  simp only [crcBit_eq, Nat.testBit_xor, Nat.shiftRight_xor_distrib]
  have lc : ∀ a b c : Nat, a ^^^ (b ^^^ c) = b ^^^ (a ^^^ c) := fun a b c => by
    rw [← Nat.xor_assoc, Nat.xor_comm a b, Nat.xor_assoc]
  cases a.testBit 0 <;> cases b.testBit 0 <;> cases x <;> cases y <;>
    simp [Nat.xor_assoc, Nat.xor_comm, lc]

/-- The bits of a byte, the lowest first. -/
def low (b : Nat) : List Bool := (List.range 8).map fun i => b.testBit i

theorem crcByte_eq (c b : Nat) : crcByte c b = (low b).foldl crcBit c := by
  have : ∀ x, ((b >>> x) % 2 == 1) = b.testBit x := by
    intro x
    rw [Nat.testBit_eq_decide_div_mod_eq, Nat.shiftRight_eq_div_pow]
    simp [Bool.beq_eq_decide_eq]
  simp only [crcByte, low, this]

theorem crc_bits (data : Bytes) (c : Nat) : data.foldl crcByte c = (data.flatMap low).foldl crcBit c := by
  induction data generalizing c with
  | nil => rfl
  | cons b data ih => simp only [List.foldl_cons, List.flatMap_cons, List.foldl_append, ih, crcByte_eq]

theorem run_xor : ∀ (xs ys : List Bool) (a b : Nat), xs.length = ys.length →
    xs.foldl crcBit a ^^^ ys.foldl crcBit b = (List.zipWith xor xs ys).foldl crcBit (a ^^^ b)
  | [], [], _, _, _ => rfl
  | x :: xs, y :: ys, a, b, h => by
    simp only [List.foldl_cons, List.zipWith_cons_cons, ← crcBit_xor]
    exact run_xor xs ys _ _ (by simpa using h)
  | [], _ :: _, _, _, h => by simp at h
  | _ :: _, [], _, _, h => by simp at h

theorem crcBit_lt16 (c : Nat) (x : Bool) (h : c < 2 ^ 16) : crcBit c x < 2 ^ 15 := by
  have h1 : c >>> 1 < 2 ^ 15 := by rw [Nat.shiftRight_eq_div_pow]; omega
  rw [crcBit_eq]
  split
  · exact Nat.xor_lt_two_pow h1 (by decide)
  · exact h1

theorem run_lt (xs : List Bool) (c : Nat) (h : c < 2 ^ 16) : xs.foldl crcBit c < 2 ^ 16 := by
  induction xs generalizing c with
  | nil => exact h
  | cons x xs ih => exact ih _ (Nat.lt_of_lt_of_le (crcBit_lt16 c x h) (by decide))

theorem run_lt15 (xs : List Bool) (c : Nat) (h : c < 2 ^ 15) : xs.foldl crcBit c < 2 ^ 15 := by
  induction xs generalizing c with
  | nil => exact h
  | cons x xs ih => exact ih _ (crcBit_lt16 c x (by omega))

theorem run_zero (n : Nat) : (List.replicate n false).foldl crcBit 0 = 0 := by
  induction n with
  | zero => rfl
  | succ n ih => simpa [List.replicate_succ, crcBit] using ih

/-- Before a step which leads to a small difference, the difference was small. -/
theorem crcBit_back (d j : Nat) (x : Bool) (hd : d < 2 ^ 15) (hj : j ≤ 14) (h : crcBit d x < 2 ^ j) : d < 2 ^ (j + 1) := by
  have hp : 2 ^ j ≤ 2 ^ 14 := Nat.pow_le_pow_right (by omega) hj
  rw [crcBit_eq] at h
  have e : d >>> 1 = d / 2 := by rw [Nat.shiftRight_eq_div_pow]
  rw [e] at h
  split at h
  · exfalso
    have h14 : (d / 2 ^^^ 0x6756).testBit 14 = true := by
      rw [Nat.testBit_xor, Nat.testBit_lt_two_pow (x := d / 2) (by omega)]
      decide
    have := Nat.ge_two_pow_of_testBit h14
    omega
  · rw [Nat.pow_succ]; omega

theorem run_small : ∀ (es : List Bool) (d : Nat), d < 2 ^ 15 → es.length ≤ 15 → es.foldl crcBit d = 0 → d < 2 ^ es.length
  | [], d, _, _, h => by simp at h; simp [h]
  | e :: es, d, hd, hl, h => by
    simp only [List.foldl_cons] at h
    have := run_small es _ (crcBit_lt16 d e (by omega)) (by simp at hl; omega) h
    exact crcBit_back d es.length e hd (by simp at hl; omega) this

theorem run_keep (n d : Nat) (hd : d < 2 ^ 15) (h : d ≠ 0) : (List.replicate n false).foldl crcBit d ≠ 0 := by
  induction n generalizing d with
  | zero => simpa using h
  | succ n ih =>
    simp only [List.replicate_succ, List.foldl_cons]
    refine ih _ (crcBit_lt16 d false (by omega)) ?_
    intro h0
    have := crcBit_back d 0 false hd (by omega) (by rw [h0]; decide)
    have h1 : d = 1 := by omega
    rw [h1] at h0
    exact absurd h0 (by decide)

/-- A group of at most 15 bits with errors, the first of them wrong. -/
theorem run_burst (n m : Nat) (w : List Bool) (hw : w.length ≤ 14) :
    (List.replicate n false ++ true :: w ++ List.replicate m false).foldl crcBit 0 ≠ 0 := by
  rw [List.foldl_append, List.foldl_append, run_zero, List.foldl_cons]
  have hlt : crcBit 0 true < 2 ^ 15 := crcBit_lt16 _ _ (by decide)
  have hw16 : w.foldl crcBit (crcBit 0 true) < 2 ^ 15 := run_lt15 w _ hlt
  apply run_keep _ _ hw16
  intro h
  have := run_small w _ hlt (by omega) h
  have h2 : (2 : Nat) ^ w.length ≤ 2 ^ 14 := Nat.pow_le_pow_right (by omega) hw
  have h3 : crcBit 0 true = 0x6756 := by decide
  omega

/-- What happens to the result at the end. -/
def fin (c : Nat) : Nat := (((0xFFFF ^^^ c) <<< 8) ||| (((0xFFFF ^^^ c) >>> 8) &&& 0xFF)) &&& 0xFFFF

theorem fin_lt (c : Nat) : fin c < 65536 := by
  have : fin c ≤ 0xFFFF := Nat.and_le_right
  omega

theorem fin_inj {a b : Nat} (ha : a < 2 ^ 16) (hb : b < 2 ^ 16) (h : fin a = fin b) : a = b := by
  have hs : ∀ c i, (fin c).testBit i = ((decide (8 ≤ i) && ((0xFFFF ^^^ c).testBit (i - 8)) ||
      (0xFFFF ^^^ c).testBit (8 + i) && decide (i < 8)) && decide (i < 16)) := by
    intro c i
    simp only [fin, Nat.testBit_and, Nat.testBit_or, Nat.testBit_shiftLeft, Nat.testBit_shiftRight]
    rw [show (0xFF : Nat) = 2 ^ 8 - 1 from rfl, show (65535 : Nat) = 2 ^ 16 - 1 from rfl, Nat.testBit_two_pow_sub_one,
      Nat.testBit_two_pow_sub_one]
  apply Nat.eq_of_testBit_eq
  intro i
  by_cases hi : i < 16
  · have key : (0xFFFF ^^^ a).testBit i = (0xFFFF ^^^ b).testBit i := by
      by_cases h8 : i < 8
      · have := congrArg (·.testBit (i + 8)) h
        simp only [hs] at this
        have e1 : 8 ≤ i + 8 := by omega
        have e2 : ¬i + 8 < 8 := by omega
        have e3 : i + 8 < 16 := by omega
        simpa [e1, e2, e3] using this
      · have := congrArg (·.testBit (i - 8)) h
        simp only [hs] at this
        have e1 : ¬8 ≤ i - 8 := by omega
        have e2 : i - 8 < 8 := by omega
        have e3 : i - 8 < 16 := by omega
        have e4 : 8 + (i - 8) = i := by omega
        simpa [e1, e2, e3, e4] using this
    simpa [Nat.testBit_xor] using key
  · rw [Nat.testBit_lt_two_pow (Nat.lt_of_lt_of_le ha (Nat.pow_le_pow_right (by omega) (by omega))),
      Nat.testBit_lt_two_pow (Nat.lt_of_lt_of_le hb (Nat.pow_le_pow_right (by omega) (by omega)))]

theorem crc16_eq (data : Bytes) : crc16 data = fin ((data.flatMap low).foldl crcBit 0xFFFF) := by
  simp only [crc16, crc_bits, fin]

@[simp] theorem low_length (b : Nat) : (low b).length = 8 := by simp [low]

theorem low_bits_length (l : Bytes) : (l.flatMap low).length = 8 * l.length := by
  induction l with
  | nil => rfl
  | cons a l ih => simp only [List.flatMap_cons, List.length_append, ih, low_length, List.length_cons]; omega

theorem low_last {b : Nat} (hb : b < 128) : ∃ l, l.length = 7 ∧ low b = l ++ [false] := by
  refine ⟨(List.range 7).map fun i => b.testBit i, by simp, ?_⟩
  have : b.testBit 7 = false := Nat.testBit_lt_two_pow (by omega)
  simp only [low, show List.range 8 = List.range 7 ++ [7] from rfl, List.map_append, List.map_cons, List.map_nil, this]

theorem low_inj {a b : Nat} (ha : a < 256) (hb : b < 256) (h : low a = low b) : a = b := by
  apply Nat.eq_of_testBit_eq
  intro i
  by_cases hi : i < 8
  · have := congrArg (fun l => l[i]?) h
    simp only [low, List.getElem?_map, List.getElem?_range hi] at this
    simpa using this
  · rw [Nat.testBit_lt_two_pow (Nat.lt_of_lt_of_le ha (Nat.pow_le_pow_right (n := 2) (i := 8) (by omega) (by omega))),
      Nat.testBit_lt_two_pow (Nat.lt_of_lt_of_le hb (Nat.pow_le_pow_right (n := 2) (i := 8) (by omega) (by omega)))]

theorem zip_self (l : List Bool) : List.zipWith xor l l = List.replicate l.length false := by
  induction l with
  | nil => rfl
  | cons a l ih => rw [List.zipWith_cons_cons, ih, List.length_cons, List.replicate_succ, Bool.xor_self]

theorem zip_eq : ∀ {l m : List Bool}, l.length = m.length → List.zipWith xor l m = List.replicate l.length false → l = m
  | [], [], _, _ => rfl
  | a :: l, b :: m, hl, h => by
    simp only [List.zipWith_cons_cons, List.length_cons, List.replicate_succ, List.cons.injEq] at h
    rw [zip_eq (by simpa using hl) h.2]
    have := h.1
    cases a <;> cases b <;> simp_all
  | [], _ :: _, h, _ => by simp at h
  | _ :: _, [], h, _ => by simp at h

theorem first_true : ∀ (l : List Bool), l ≠ List.replicate l.length false →
    ∃ n w, l = List.replicate n false ++ true :: w
  | [], h => by simp at h
  | true :: l, _ => ⟨0, l, rfl⟩
  | false :: l, h => by
    obtain ⟨n, w, rfl⟩ := first_true l (by
      intro h'
      apply h
      simp only [List.length_cons, List.replicate_succ, ← h'])
    exact ⟨n + 1, w, by simp [List.replicate_succ]⟩

/-- Changes of one or two neighbouring half-bytes change the checksum. -/
theorem crc_detects (pre mid mid' post : Bytes) (hl : mid.length = mid'.length) (h2 : mid.length ≤ 2)
    (hm : ∀ b ∈ mid, b < 128) (hm' : ∀ b ∈ mid', b < 128) (hne : mid ≠ mid') :
    crc16 (pre ++ mid ++ post) ≠ crc16 (pre ++ mid' ++ post) := by
  intro h
  rw [crc16_eq, crc16_eq] at h
  have h := fin_inj (run_lt _ _ (by decide)) (run_lt _ _ (by decide)) h
  have h0 : (((pre ++ mid ++ post).flatMap low).foldl crcBit 0xFFFF) ^^^ (((pre ++ mid' ++ post).flatMap low).foldl crcBit 0xFFFF) = 0 := by
    rw [h, Nat.xor_self]
  have hlen : (mid.flatMap low).length = (mid'.flatMap low).length := by rw [low_bits_length, low_bits_length, hl]
  rw [run_xor _ _ _ _ (by simp only [low_bits_length, List.length_append, hl]), Nat.xor_self] at h0
  simp only [List.flatMap_append] at h0
  rw [List.zipWith_append (by simp only [List.length_append, low_bits_length, hl]), List.zipWith_append rfl, zip_self, zip_self] at h0
  -- the difference in the middle
  have hd : List.zipWith xor (mid.flatMap low) (mid'.flatMap low) ≠ List.replicate (List.zipWith xor (mid.flatMap low) (mid'.flatMap low)).length false := by
    intro he
    have he' := zip_eq hlen (by rw [he]; simp [hlen])
    have : ∀ {l m : Bytes}, l.length = m.length → (∀ b ∈ l, b < 128) → (∀ b ∈ m, b < 128) → l.flatMap low = m.flatMap low → l = m := by
      intro l
      induction l with
      | nil => intro m h _ _ _; cases m <;> simp_all
      | cons a l ih =>
        intro m h ha hb he
        cases m with
        | nil => simp at h
        | cons b m =>
          simp only [List.flatMap_cons] at he
          have := List.append_inj he (by simp)
          rw [low_inj (by have := ha a (by simp); omega) (by have := hb b (by simp); omega) this.1,
            ih (by simpa using h) (fun x hx => ha x (by simp [hx])) (fun x hx => hb x (by simp [hx])) this.2]
    exact hne (this hl hm hm' he')
  -- its last bit is not wrong
  have hlast : ∃ d, d.length ≤ 15 ∧ List.zipWith xor (mid.flatMap low) (mid'.flatMap low) = d ++ [false] := by
    match mid, mid', hl, h2, hm, hm', hne with
    | [a], [a'], _, _, hm, hm', _ =>
      obtain ⟨l, h1, h2⟩ := low_last (hm a (by simp))
      obtain ⟨l', h1', h2'⟩ := low_last (hm' a' (by simp))
      refine ⟨List.zipWith xor l l', by simp; omega, ?_⟩
      simp only [List.flatMap_cons, List.flatMap_nil, List.append_nil, h2, h2']
      rw [List.zipWith_append (by omega)]
      rfl
    | [a, b], [a', b'], _, _, hm, hm', _ =>
      obtain ⟨l, h1, h2⟩ := low_last (hm b (by simp))
      obtain ⟨l', h1', h2'⟩ := low_last (hm' b' (by simp))
      refine ⟨List.zipWith xor (low a ++ l) (low a' ++ l'), by simp; omega, ?_⟩
      simp only [List.flatMap_cons, List.flatMap_nil, List.append_nil, h2, h2']
      rw [← List.append_assoc, ← List.append_assoc, List.zipWith_append (by simp; omega)]
      rfl
    | [], [], _, _, _, _, hne => exact absurd rfl hne
  obtain ⟨d, hdl, hde⟩ := hlast
  rw [hde] at h0 hd
  obtain ⟨n, w, hw⟩ := first_true d (by
    intro h'
    apply hd
    conv => lhs; rw [h']
    simp [List.replicate_succ'])
  rw [hw] at h0 hdl
  refine run_burst ((pre.flatMap low).length + n) (1 + (post.flatMap low).length) w ?_ (Eq.trans ?_ h0)
  · simp at hdl; omega
  · congr 1
    rw [← List.replicate_append_replicate, ← List.replicate_append_replicate]
    simp only [List.append_assoc, List.cons_append, List.replicate_one]

end PySwitch.Lemmas.Bridge
