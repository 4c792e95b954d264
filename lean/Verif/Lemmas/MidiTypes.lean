import Verif.Spec.MidiTypes
import Verif.Lemmas.Wire
/-! Lemmas about the message types of the MIDI library. -/
namespace PySwitch.MidiTypes
open PySwitch.Wire (isStatus skipData searchEom slice channelFilter)

/-! ### The registry -/

theorem mem_register {α : Type} (mask : α → Nat) (c x : α) : ∀ l : List α, x ∈ register mask c l ↔ x = c ∨ x ∈ l
  | [] => by simp [register]
  | y :: ys => by
    unfold register
    split
    · simp
    · rw [List.mem_cons, mem_register mask c x ys, List.mem_cons]
      constructor
      · rintro (h | h | h)
        · exact .inr (.inl h)
        · exact .inl h
        · exact .inr (.inr h)
      · rintro (h | h | h)
        · exact .inr (.inl h)
        · exact .inl h
        · exact .inr (.inr h)

theorem sorted_register {α : Type} (mask : α → Nat) (c : α) : ∀ l : List α, l.Pairwise (fun a b => mask b ≤ mask a) →
    (register mask c l).Pairwise fun a b => mask b ≤ mask a
  | [], _ => by simp [register]
  | y :: ys, h => by
    unfold register
    rw [List.pairwise_cons] at h
    split
    · rename_i hc
      refine List.pairwise_cons.2 ⟨?_, List.pairwise_cons.2 h⟩
      intro b hb
      rcases List.mem_cons.1 hb with rfl | hb
      · omega
      · have := h.1 b hb; omega
    · rename_i hc
      refine List.pairwise_cons.2 ⟨?_, sorted_register mask c ys h.2⟩
      intro b hb
      rcases (mem_register mask c b ys).1 hb with rfl | hb
      · omega
      · exact h.1 b hb

theorem registry_spec {α : Type} (mask : α → Nat) (imports : List α) :
    (∀ x, x ∈ registry mask imports ↔ x ∈ imports) ∧ (registry mask imports).Pairwise fun a b => mask b ≤ mask a := by
  unfold registry
  suffices H : ∀ (l acc : List α), acc.Pairwise (fun a b => mask b ≤ mask a) →
      (∀ x, x ∈ l.foldl (fun r c => register mask c r) acc ↔ x ∈ acc ∨ x ∈ l) ∧
        (l.foldl (fun r c => register mask c r) acc).Pairwise fun a b => mask b ≤ mask a by
    have := H imports [] List.Pairwise.nil
    exact ⟨fun x => by simpa using this.1 x, this.2⟩
  intro l
  induction l with
  | nil => intro acc h; exact ⟨fun x => by simp, h⟩
  | cons c l ih =>
    intro acc h
    obtain ⟨h1, h2⟩ := ih (register mask c acc) (sorted_register mask c acc h)
    refine ⟨fun x => ?_, h2⟩
    rw [List.foldl_cons, h1, mem_register, List.mem_cons]
    constructor
    · rintro ((h | h) | h)
      · exact .inr (.inl h)
      · exact .inl h
      · exact .inr (.inr h)
    · rintro (h | h | h)
      · exact .inl (.inr h)
      · exact .inl (.inl h)
      · exact .inr h

theorem mem_allCls (c : Cls) : c ∈ allCls := by cases c <;> decide

set_option maxRecDepth 100000 in
theorem unique_all : ∀ st < 256, ∀ c ∈ allCls, (c.status == st &&& c.mask) = true → ∀ c' ∈ allCls, (c'.status == st &&& c'.mask) = true → c = c' := by
  decide +kernel

theorem unique_cls {st : Nat} (hst : st < 256) {c c' : Cls} (h : c.status = st &&& c.mask) (h' : c'.status = st &&& c'.mask) : c = c' :=
  unique_all st hst c (mem_allCls c) (by simpa using h) c' (mem_allCls c') (by simpa using h')

theorem classOf_some (imports : List Cls) {st : Nat} (hst : st < 256) {c : Cls} (hc : c ∈ imports) (h : c.status = st &&& c.mask) :
    classOf (registry Cls.mask imports) st = some c := by
  unfold classOf
  cases hf : (registry Cls.mask imports).find? fun c => c.status == st &&& c.mask with
  | none =>
    have := List.find?_eq_none.1 hf c (((registry_spec Cls.mask imports).1 c).2 hc)
    exact absurd h (by simpa using this)
  | some c' =>
    have h' := List.find?_some hf
    rw [unique_cls hst h (by simpa using h')]

theorem classOf_none (imports : List Cls) {st : Nat} (hst : st < 256) {c : Cls} (hc : c ∉ imports) (h : c.status = st &&& c.mask) :
    classOf (registry Cls.mask imports) st = none := by
  unfold classOf
  refine List.find?_eq_none.2 fun c' hc' => ?_
  intro hm
  have : c = c' := unique_cls hst h (by simpa using hm)
  exact hc (this ▸ ((registry_spec Cls.mask imports).1 c').1 hc')

/-! ### Messages -/

theorem status_byte : ∀ ch < 16, ∀ c ∈ allCls, c.hasChannel = true →
    isStatus (c.status + ch) = true ∧ c.status + ch < 256 ∧ c.status = (c.status + ch) &&& c.mask ∧ (c.status + ch) &&& 0x0F = ch ∧
      c.status ||| (ch &&& 0x0F) = c.status + ch := by decide +kernel

theorem status_single : ∀ c ∈ allCls, c.hasChannel = false → isStatus c.status = true ∧ c.status < 256 ∧ c.status = c.status &&& c.mask := by
  decide +kernel

theorem wire_head (ch : Nat) (hch : ch < 16) (m : Msg) (hm : Valid m) :
    ∃ st tl c, wire ch m = st :: tl ∧ m.cls = some c ∧ isStatus st = true ∧ st < 256 ∧ c.status = st &&& c.mask := by
  have B := fun c hc => status_byte ch hch c (mem_allCls c) hc
  have S := fun c hc => status_single c (mem_allCls c) hc
  cases m with
  | two t a b _ =>
    cases t
    · exact ⟨_, _, .noteOff, rfl, rfl, (B .noteOff rfl).1, (B .noteOff rfl).2.1, (B .noteOff rfl).2.2.1⟩
    · exact ⟨_, _, .noteOn, rfl, rfl, (B .noteOn rfl).1, (B .noteOn rfl).2.1, (B .noteOn rfl).2.2.1⟩
    · exact ⟨_, _, .keyPressure, rfl, rfl, (B .keyPressure rfl).1, (B .keyPressure rfl).2.1, (B .keyPressure rfl).2.2.1⟩
    · exact ⟨_, _, .cc, rfl, rfl, (B .cc rfl).1, (B .cc rfl).2.1, (B .cc rfl).2.2.1⟩
  | one t a _ =>
    cases t
    · exact ⟨_, _, .pc, rfl, rfl, (B .pc rfl).1, (B .pc rfl).2.1, (B .pc rfl).2.2.1⟩
    · exact ⟨_, _, .chanPressure, rfl, rfl, (B .chanPressure rfl).1, (B .chanPressure rfl).2.1, (B .chanPressure rfl).2.2.1⟩
  | bend v _ => exact ⟨_, _, .bend, rfl, rfl, (B .bend rfl).1, (B .bend rfl).2.1, (B .bend rfl).2.2.1⟩
  | sysex m d => exact ⟨_, _, .sysex, rfl, rfl, S .sysex rfl⟩
  | mtc t v => exact ⟨_, _, .mtc, rfl, rfl, S .mtc rfl⟩
  | single t =>
    cases t
    · exact ⟨_, _, .clock, rfl, rfl, S .clock rfl⟩
    · exact ⟨_, _, .start, rfl, rfl, S .start rfl⟩
    · exact ⟨_, _, .continue, rfl, rfl, S .continue rfl⟩
    · exact ⟨_, _, .stop, rfl, rfl, S .stop rfl⟩
    · exact ⟨_, _, .sensing, rfl, rfl, S .sensing rfl⟩
  | unknown st => exact hm.elim
  | bad b => exact hm.elim

theorem bend_low : ∀ v, v &&& 0x7F = v % 128 := fun v => Nat.and_two_pow_sub_one_eq_mod v 7

theorem bend_join (x y : Nat) (hx : x < 128) : (y <<< 7) ||| x = y * 128 + x := by
  rw [Nat.shiftLeft_eq, ← Nat.shiftLeft_eq]
  have := Nat.shiftLeft_add_eq_or_of_lt (i := 7) (b := x) (by simpa using hx) y
  rw [← this, Nat.shiftLeft_eq]

theorem toBytes_wire (ch : Nat) (hch : ch < 16) (m : Msg) (hm : Valid m) : toBytes ch m = wire ch m := by
  have B : ∀ c : Cls, c.hasChannel = true → c.status ||| (ch &&& 0x0F) = c.status + ch :=
    fun c hc => (status_byte ch hch c (mem_allCls c) hc).2.2.2.2
  cases m with
  | two t a b _ =>
    cases t
    · exact congrArg (fun x => [x, a, b]) (B .noteOff rfl)
    · exact congrArg (fun x => [x, a, b]) (B .noteOn rfl)
    · exact congrArg (fun x => [x, a, b]) (B .keyPressure rfl)
    · exact congrArg (fun x => [x, a, b]) (B .cc rfl)
  | one t a _ =>
    cases t
    · exact congrArg (fun x => [x, a]) (B .pc rfl)
    · exact congrArg (fun x => [x, a]) (B .chanPressure rfl)
  | bend v _ =>
    have hv : v < 16384 := hm
    show [_ ||| _, v &&& 0x7F, (v >>> 7) &&& 0x7F] = _
    rw [B .bend rfl, bend_low, bend_low, Nat.shiftRight_eq_div_pow]
    have : v / 2 ^ 7 % 128 = v / 128 := by omega
    rw [this]; rfl
  | sysex m d => rfl
  | mtc t v =>
    show [_, (t <<< 4) + v] = [241, 16 * t + v]
    rw [Nat.shiftLeft_eq, Nat.mul_comm]; rfl
  | single t => cases t <;> rfl
  | unknown st => rfl
  | bad b => rfl

theorem fromBytes_wire (ch : Nat) (hch : ch < 16) (m : Msg) (hm : Valid m) (c : Cls) (hc : m.cls = some c) :
    fromBytes c (wire ch m) = m.onChannel ch := by
  have B := fun c hc => (status_byte ch hch c (mem_allCls c) hc).2.2.2.1
  cases m with
  | two t a b o =>
    obtain ⟨ha, hb⟩ : a < 128 ∧ b < 128 := hm
    have key : ∀ (t : Two) (st : Nat), st &&& 0x0F = ch → fromTwo t [st, a, b] = .two t a b (some ch) := by
      intro t st h
      show (if a ≤ 127 ∧ b ≤ 127 then _ else _) = _
      rw [if_pos ⟨by omega, by omega⟩, h]
    cases t <;> cases hc
    · exact key _ _ (B .noteOff rfl)
    · exact key _ _ (B .noteOn rfl)
    · exact key _ _ (B .keyPressure rfl)
    · exact key _ _ (B .cc rfl)
  | one t a o =>
    have ha : a < 128 := hm
    have key : ∀ (t : One) (st : Nat), st &&& 0x0F = ch → fromOne t [st, a] = .one t a (some ch) := by
      intro t st h
      show (if a ≤ 127 then _ else _) = _
      rw [if_pos (by omega), h]
    cases t <;> cases hc
    · exact key _ _ (B .pc rfl)
    · exact key _ _ (B .chanPressure rfl)
  | bend v o =>
    have hv : v < 16384 := hm
    cases hc
    show (if ((v / 128) <<< 7) ||| (v % 128) ≤ 16383 then Msg.bend (((v / 128) <<< 7) ||| (v % 128)) (some ((224 + ch) &&& 0x0F)) else _) = _
    rw [bend_join _ _ (by omega)]
    have h1 : v / 128 * 128 + v % 128 = v := by omega
    have h2 : (224 + ch) &&& 0x0F = ch := B .bend rfl
    rw [h1, h2, if_pos (by omega)]; rfl
  | sysex mf d =>
    cases hc
    obtain ⟨hmf, hd⟩ := hm
    show fromSysex (240 :: (mf ++ d ++ [247])) = _
    rcases hmf with ⟨x, rfl, hx, -⟩ | ⟨a, b, rfl, -, -⟩
    · simp [fromSysex, slice, Msg.onChannel, hx, List.take_append]
    · simp [fromSysex, slice, Msg.onChannel, List.take_append]
  | mtc t v =>
    obtain ⟨ht, hv⟩ : t < 8 ∧ v < 16 := hm
    cases hc
    show (if (16 * t + v) >>> 4 ≤ 7 ∧ (16 * t + v) &&& 15 ≤ 0x0F then Msg.mtc ((16 * t + v) >>> 4) ((16 * t + v) &&& 15) else _) = _
    have h1 : (16 * t + v) >>> 4 = t := by rw [Nat.shiftRight_eq_div_pow]; omega
    have h2 : (16 * t + v) &&& 15 = v := by
      have := Nat.and_two_pow_sub_one_eq_mod (16 * t + v) 4
      have h3 : (2 ^ 4 - 1 : Nat) = 15 := rfl
      rw [h3] at this; rw [this]; omega
    rw [h1, h2, if_pos ⟨by omega, by omega⟩]; rfl
  | single t => cases t <;> cases hc <;> rfl
  | unknown st => exact hm.elim
  | bad b => exact hm.elim

theorem extent_fixed (buf : List Nat) (start e : Nat) (c : Cls) (n : Nat) (hn : c.length = (n : Int)) (h : start + n ≤ buf.length) :
    extent buf start e c = (true, start + n) := by
  unfold extent
  rw [if_neg (by omega), if_neg (by omega), hn]; rfl

theorem extent_wire (ch : Nat) (m : Msg) (hm : Valid m) (c : Cls) (hc : m.cls = some c) (pre rest : List Nat) (e : Nat) :
    extent (pre ++ (wire ch m ++ rest)) pre.length e c = (true, pre.length + (wire ch m).length) := by
  cases m with
  | two t a b o => cases t <;> cases hc <;> exact extent_fixed _ _ _ _ 3 rfl (by simp [wire])
  | one t a o => cases t <;> cases hc <;> exact extent_fixed _ _ _ _ 2 rfl (by simp [wire])
  | bend v o => cases hc; exact extent_fixed _ _ _ _ 3 rfl (by simp [wire])
  | sysex mf d =>
    cases hc
    have hd : PySwitch.Wire.Spec.Data7 (mf ++ d) := by
      intro x hx
      rcases List.mem_append.1 hx with h | h
      · rcases hm.1 with ⟨y, rfl, -, hy⟩ | ⟨a, b, rfl, ha, hb⟩
        · simp at h; omega
        · simp at h; omega
      · exact hm.2 x h
    have hs := Wire.searchEom_eq (pre ++ [240]) (mf ++ d) rest hd
    have he : (pre ++ [240]) ++ ((mf ++ d) ++ 247 :: rest) = pre ++ (wire ch (.sysex mf d) ++ rest) := by simp [wire]
    rw [he] at hs
    have hl : (pre ++ [240]).length = pre.length + 1 := by simp
    rw [hl] at hs
    unfold extent
    rw [if_neg (by simp [Cls.length]; omega), if_pos (by decide), hs]
    simp [wire]; omega
  | mtc t v => cases hc; exact extent_fixed _ _ _ _ 2 rfl (by simp [wire])
  | single t => cases t <;> cases hc <;> exact extent_fixed _ _ _ _ 1 rfl (by simp [wire])
  | unknown st => exact hm.elim
  | bad b => exact hm.elim

/-! ### The loop -/

theorem loop_status (reg : List Cls) (spec buf : List Nat) (fuel start e st : Nat) (hg : buf[start]? = some st) (hs : isStatus st = true) :
    parseLoop reg spec buf (fuel + 1) start e =
      match classOf reg st with
      | none => (some (.unknown st), start + 1)
      | some c =>
        if (extent buf start e c).1 then
          if accepted spec (fromBytes c (slice buf start (extent buf start e c).2)) then
            (some (fromBytes c (slice buf start (extent buf start e c).2)), (extent buf start e c).2)
          else parseLoop reg spec buf fuel (extent buf start e c).2 (extent buf start e c).2
        else (none, (extent buf start e c).2) := by
  rw [parseLoop]
  simp only [Wire.skipData_status _ _ _ hg hs, hg]
  rfl

theorem getElem_pre (pre : List Nat) (x : Nat) (l : List Nat) : (pre ++ x :: l)[pre.length]? = some x := by simp

theorem loop_message (imports : List Cls) (spec pre rest : List Nat) (ch : Nat) (hch : ch < 16) (m : Msg) (hm : Valid m) (c : Cls)
    (hc : m.cls = some c) (hi : c ∈ imports) (fuel e : Nat) :
    parseLoop (registry Cls.mask imports) spec (pre ++ (wire ch m ++ rest)) (fuel + 1) pre.length e =
      if accepted spec (m.onChannel ch) then (some (m.onChannel ch), pre.length + (wire ch m).length)
      else parseLoop (registry Cls.mask imports) spec (pre ++ (wire ch m ++ rest)) fuel (pre.length + (wire ch m).length)
        (pre.length + (wire ch m).length) := by
  obtain ⟨st, tl, c', hw, hc', hs, hst, hst'⟩ := wire_head ch hch m hm
  rw [hc] at hc'; cases hc'
  have hg : (pre ++ (wire ch m ++ rest))[pre.length]? = some st := by rw [hw]; exact getElem_pre pre st _
  rw [loop_status _ _ _ _ _ _ _ hg hs, classOf_some imports hst hi hst']
  simp only [extent_wire ch m hm c hc, if_true]
  rw [Wire.slice_mid pre (wire ch m) rest _ rfl, fromBytes_wire ch hch m hm c hc]

end PySwitch.MidiTypes
