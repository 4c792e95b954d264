import Verif.Lemmas.MidiTypes
/-!
C150: All types of MIDI messages survive sending and receiving, whatever types are imported, in any order.
C152: Interrupted messages are reported as bad.
-/
namespace PySwitch.Props
open PySwitch.MidiTypes
open PySwitch.Wire (isStatus)

/-! ### The types -/

/-- For any kinds of message types, imported in any order: the types known are the imported ones, and if several of them match a message, the
first which is found is one with the largest (most specific) mask. -/
theorem C150_most_specific {α : Type} (mask : α → Nat) (fits : α → Bool) (imports : List α) :
    (∀ c, c ∈ registry mask imports ↔ c ∈ imports) ∧
      ((registry mask imports).find? fits = none ↔ ∀ c ∈ imports, fits c = false) ∧
      ∀ c, (registry mask imports).find? fits = some c → c ∈ imports ∧ fits c = true ∧ ∀ c' ∈ imports, fits c' = true → mask c' ≤ mask c := by
  obtain ⟨h1, h2⟩ := registry_spec mask imports
  refine ⟨h1, ?_, ?_⟩
  · rw [List.find?_eq_none]
    constructor
    · intro h c hc; simpa using h c ((h1 c).2 hc)
    · intro h c hc; simpa using h c ((h1 c).1 hc)
  · intro c hc
    refine ⟨(h1 c).1 (List.mem_of_find?_eq_some hc), List.find?_some hc, ?_⟩
    intro c' hc' hf
    obtain ⟨-, as, bs, hl, hno⟩ := List.find?_eq_some_iff_append.1 hc
    have hm := (h1 c').2 hc'
    rw [hl] at hm h2
    rcases List.mem_append.1 hm with ha | hb
    · exact absurd hf (by simpa using hno c' ha)
    · rcases List.mem_cons.1 hb with rfl | hb
      · exact Nat.le_refl _
      · exact (List.pairwise_cons.1 (List.pairwise_append.1 h2).2.1).1 c' hb

/-- The bytes which are sent are those of the MIDI specification. -/
theorem C150_bytes (ch : Nat) (hch : ch < 16) (m : Msg) (hm : Valid m) : toBytes ch m = wire ch m := toBytes_wire ch hch m hm

/-- A message which is sent on a channel which is received, and is of an imported type, is received as it was, whatever follows. -/
theorem C150_round_trip (imports : List Cls) (spec : List Nat) (ch : Nat) (hch : ch < 16) (m : Msg) (hm : Valid m) (c : Cls)
    (hc : m.cls = some c) (hi : c ∈ imports) (hs : c.hasChannel = true → ch ∈ spec) (rest : List Nat) :
    parse imports spec (toBytes ch m ++ rest) = (some (m.onChannel ch), (toBytes ch m).length) := by
  rw [toBytes_wire ch hch m hm]
  have h := loop_message imports spec [] rest ch hch m hm c hc hi ((wire ch m ++ rest).length) 0
  simp only [List.nil_append, List.length_nil, Nat.zero_add] at h
  have ha : accepted spec (m.onChannel ch) = true := by
    cases m with
    | two t a b o => cases t <;> cases hc <;> simpa [accepted, Msg.onChannel, Msg.channel, Wire.channelFilter] using hs rfl
    | one t a o => cases t <;> cases hc <;> simpa [accepted, Msg.onChannel, Msg.channel, Wire.channelFilter] using hs rfl
    | bend v o => cases hc; simpa [accepted, Msg.onChannel, Msg.channel, Wire.channelFilter] using hs rfl
    | sysex mf d => rfl
    | mtc t v => rfl
    | single t => rfl
    | unknown st => rfl
    | bad b => rfl
  rw [if_pos ha] at h
  exact h

/-- A message of a type which is not imported is reported as unknown, by its first byte. -/
theorem C150_not_imported (imports : List Cls) (spec : List Nat) (ch : Nat) (hch : ch < 16) (m : Msg) (hm : Valid m) (c : Cls)
    (hc : m.cls = some c) (hi : c ∉ imports) (rest : List Nat) :
    ∃ st, (toBytes ch m).head? = some st ∧ parse imports spec (toBytes ch m ++ rest) = (some (.unknown st), 1) := by
  rw [toBytes_wire ch hch m hm]
  obtain ⟨st, tl, c', hw, hc', hs, hst, hst'⟩ := wire_head ch hch m hm
  rw [hc] at hc'; cases hc'
  refine ⟨st, by rw [hw]; rfl, ?_⟩
  unfold parse
  rw [loop_status _ _ _ _ _ _ st (by rw [hw]; rfl) hs, classOf_none imports hst hi hst']

/-! ### Streams -/

/-- The bytes of messages, each on its channel. -/
def c150_stream : List (Nat × Msg) → List Nat
  | [] => []
  | (ch, m) :: ms => wire ch m ++ c150_stream ms

def c150_ok (imports : List Cls) (x : Nat × Msg) : Prop := x.1 < 16 ∧ Valid x.2 ∧ ∃ c ∈ imports, x.2.cls = some c

def c150_keep (spec : List Nat) (x : Nat × Msg) : Bool := accepted spec (x.2.onChannel x.1)

theorem c150_wire_pos (imports : List Cls) (x : Nat × Msg) (h : c150_ok imports x) : 0 < (wire x.1 x.2).length := by
  obtain ⟨st, tl, c', hw, -⟩ := wire_head x.1 h.1 x.2 h.2.1
  rw [hw]; simp

theorem c150_loop (imports : List Cls) (spec : List Nat) : ∀ (ms : List (Nat × Msg)) (pre : List Nat) (fuel e : Nat),
    (∀ x ∈ ms, c150_ok imports x) → ms.length < fuel →
    ∃ skipped later, (∀ x ∈ skipped, c150_keep spec x = false) ∧
      ((ms = skipped ∧ later = [] ∧
        parseLoop (registry Cls.mask imports) spec (pre ++ c150_stream ms) fuel pre.length e = (none, (pre ++ c150_stream ms).length)) ∨
      ∃ x, c150_keep spec x = true ∧ ms = skipped ++ x :: later ∧
        parseLoop (registry Cls.mask imports) spec (pre ++ c150_stream ms) fuel pre.length e =
          (some (x.2.onChannel x.1), pre.length + (c150_stream (skipped ++ [x])).length)) := by
  intro ms
  induction ms with
  | nil =>
    intro pre fuel e _ hf
    obtain ⟨fuel, rfl⟩ : ∃ n, fuel = n + 1 := ⟨fuel - 1, by simp at hf; omega⟩
    refine ⟨[], [], by simp, .inl ⟨rfl, rfl, ?_⟩⟩
    rw [parseLoop]
    have hn : (pre ++ c150_stream [])[pre.length]? = none := by simp [c150_stream]
    simp only [Wire.skipData_end _ _ hn, hn]
  | cons x ms ih =>
    intro pre fuel e hv hf
    obtain ⟨fuel, rfl⟩ : ∃ n, fuel = n + 1 := ⟨fuel - 1, by simp at hf; omega⟩
    obtain ⟨ch, m⟩ := x
    obtain ⟨hch, hm, c, hi, hc⟩ := hv (ch, m) List.mem_cons_self
    have hl := loop_message imports spec pre (c150_stream ms) ch hch m hm c hc hi fuel e
    by_cases hk : accepted spec (m.onChannel ch) = true
    · refine ⟨[], ms, by simp, .inr ⟨(ch, m), hk, rfl, ?_⟩⟩
      show parseLoop _ _ (pre ++ (wire ch m ++ c150_stream ms)) _ _ _ = _
      rw [hl, if_pos hk]
      simp [c150_stream]
    · rw [if_neg hk] at hl
      obtain ⟨skipped, later, h1, h2⟩ := ih (pre ++ wire ch m) fuel (pre.length + (wire ch m).length)
        (fun y hy => hv y (List.mem_cons_of_mem _ hy)) (by simp at hf; omega)
      rw [List.append_assoc, List.length_append] at h2
      refine ⟨(ch, m) :: skipped, later, ?_, ?_⟩
      · intro y hy
        rcases List.mem_cons.1 hy with rfl | hy
        · simpa [c150_keep] using hk
        · exact h1 y hy
      · rcases h2 with ⟨a, b, h⟩ | ⟨y, hy, a, h⟩
        · exact .inl ⟨by rw [a], b, hl.trans h⟩
        · refine .inr ⟨y, hy, by rw [a]; rfl, (hl.trans h).trans ?_⟩
          simp only [c150_stream, List.cons_append, List.length_append]
          rw [Nat.add_assoc]

theorem c150_append (a b : List (Nat × Msg)) : c150_stream (a ++ b) = c150_stream a ++ c150_stream b := by
  induction a with
  | nil => rfl
  | cons x a ih => obtain ⟨ch, m⟩ := x; simp [c150_stream, ih]

theorem c150_length (imports : List Cls) (ms : List (Nat × Msg)) (h : ∀ x ∈ ms, c150_ok imports x) : ms.length ≤ (c150_stream ms).length := by
  induction ms with
  | nil => simp
  | cons x ms ih =>
    have := ih fun y hy => h y (List.mem_cons_of_mem _ hy)
    have hp := c150_wire_pos imports x (h x List.mem_cons_self)
    obtain ⟨ch, m⟩ := x
    simp only [c150_stream, List.length_cons, List.length_append] at *
    omega

theorem c150_receive (imports : List Cls) (spec : List Nat) (ms : List (Nat × Msg)) (h : ∀ x ∈ ms, c150_ok imports x) :
    (receive imports spec (c150_stream ms) = (none, []) ∧ ms.filter (c150_keep spec) = []) ∨
      ∃ x skipped later, ms = skipped ++ x :: later ∧ receive imports spec (c150_stream ms) = (some (x.2.onChannel x.1), c150_stream later) ∧
        ms.filter (c150_keep spec) = x :: later.filter (c150_keep spec) := by
  have hlen := c150_length imports ms h
  obtain ⟨skipped, later, h1, h2⟩ := c150_loop imports spec ms [] ((c150_stream ms).length + 1) 0 h (by omega)
  have hf : skipped.filter (c150_keep spec) = [] := List.filter_eq_nil_iff.2 fun x hx => by simp [h1 x hx]
  simp only [List.nil_append, List.length_nil, Nat.zero_add] at h2
  rcases h2 with ⟨a, b, hp⟩ | ⟨x, hx, a, hp⟩
  · left
    refine ⟨?_, by rw [a]; exact hf⟩
    unfold receive parse
    rw [hp]
    by_cases h0 : (c150_stream ms).length = 0
    · simp [List.length_eq_zero_iff.1 h0]
    · simp
  · right
    refine ⟨x, skipped, later, a, ?_, ?_⟩
    · unfold receive parse
      rw [hp]
      have hpos := c150_wire_pos imports x (h x (by rw [a]; simp))
      have hl : (c150_stream (skipped ++ [x])).length ≠ 0 := by
        rw [c150_append]
        obtain ⟨ch, m⟩ := x
        simp only [c150_stream, List.length_append, List.append_nil] at *
        omega
      simp only [hl, ne_eq, not_false_eq_true, if_true]
      have hs : c150_stream ms = c150_stream (skipped ++ [x]) ++ c150_stream later := by
        rw [← c150_append, a]; simp
      rw [hs, List.drop_left]
    · rw [a, List.filter_append, hf, List.nil_append, List.filter_cons_of_pos hx]

/-- Messages of imported types which are sent one after the other, each on any channel, are received one after the other: just those whose
channel is received, all of them, in the same order and as they were, and nothing is left over. -/
theorem C150_stream (imports : List Cls) (spec : List Nat) (ms : List (Nat × Msg))
    (h : ∀ x ∈ ms, x.1 < 16 ∧ Valid x.2 ∧ ∃ c ∈ imports, x.2.cls = some c) (n : Nat) (hn : ms.length < n) :
    receives imports spec n (ms.flatMap fun x => toBytes x.1 x.2) =
      ((ms.filter fun x => !(x.2.onChannel x.1).channel.isSome || spec.contains x.1).map fun x => x.2.onChannel x.1, []) := by
  have hb : (ms.flatMap fun x => toBytes x.1 x.2) = c150_stream ms := by
    clear hn
    induction ms with
    | nil => rfl
    | cons x ms ih =>
      obtain ⟨ch, m⟩ := x
      rw [List.flatMap_cons, ih fun y hy => h y (List.mem_cons_of_mem _ hy)]
      have := h (ch, m) List.mem_cons_self
      rw [toBytes_wire ch this.1 m this.2.1]; rfl
  have hk : (fun x : Nat × Msg => !(x.2.onChannel x.1).channel.isSome || spec.contains x.1) = c150_keep spec := by
    funext x
    obtain ⟨ch, m⟩ := x
    cases m <;> simp [c150_keep, accepted, Msg.onChannel, Msg.channel, Wire.channelFilter]
  rw [hb, hk]
  suffices H : ∀ (n : Nat) (ms : List (Nat × Msg)), (∀ x ∈ ms, c150_ok imports x) → ms.length < n →
      receives imports spec n (c150_stream ms) = ((ms.filter (c150_keep spec)).map (fun x => x.2.onChannel x.1), []) from H n ms h hn
  intro n
  induction n with
  | zero => intro ms _ hn; omega
  | succ n ih =>
    intro ms h hn
    rw [receives]
    rcases c150_receive imports spec ms h with ⟨hr, hf⟩ | ⟨x, skipped, later, a, hr, hf⟩
    · rw [hr, hf]
      have hz : ∀ n, receives imports spec n [] = ([], []) := by
        intro n
        induction n with
        | zero => rfl
        | succ n ih' =>
          have h0 : receive imports spec [] = (none, []) := by
            unfold receive parse
            rw [parseLoop]
            simp only [Wire.skipData_end [] 0 rfl, List.getElem?_nil]
            rfl
          rw [receives, h0, ih']; rfl
      simp only [hz]; rfl
    · rw [hr, hf]
      have hl : later.length < n := by rw [a] at hn; simp at hn; omega
      have := ih later (fun y hy => h y (by rw [a]; simp [hy])) hl
      simp only [this]
      simp

/-! ### Broken messages -/

/-- If another message begins within a message with data bytes, it is reported as bad, as a whole. Partial: not for the first data byte of
pitch bend messages (see the witness). -/
theorem C152_broken_partial (imports : List Cls) (spec : List Nat) (c : Cls) (hi : c ∈ imports) (st : Nat) (hst : st < 256)
    (hs : isStatus st = true) (hc : c.status = st &&& c.mask) (data : List Nat) (hd : ∀ x ∈ data, x < 256) (hb : ∃ x ∈ data, 128 ≤ x)
    (hl : c.length = (data.length + 1 : Nat)) (hbend : c = .bend → ∃ x, data[1]? = some x ∧ 128 ≤ x) (rest : List Nat) :
    parse imports spec (st :: data ++ rest) = (some (.bad (st :: data)), data.length + 1) := by
  unfold parse
  rw [loop_status _ _ _ _ _ _ st rfl hs, classOf_some imports hst hi hc]
  have he : extent (st :: data ++ rest) 0 0 c = (true, data.length + 1) := by
    rw [extent_fixed _ _ _ _ (data.length + 1) hl (by simp)]; simp
  have hsl : Wire.slice (st :: data ++ rest) 0 (data.length + 1) = st :: data := by
    simp [Wire.slice]
  have two : ∀ t : Two, data.length = 2 → fromTwo t (st :: data) = .bad (st :: data) := by
    intro t h
    match data, h, hb with
    | [x, y], _, ⟨z, hz, hz'⟩ =>
      simp at hz
      show (if x ≤ 127 ∧ y ≤ 127 then _ else _) = _
      rw [if_neg (by omega)]
  have one : ∀ t : One, data.length = 1 → fromOne t (st :: data) = .bad (st :: data) := by
    intro t h
    match data, h, hb with
    | [x], _, ⟨z, hz, hz'⟩ =>
      simp at hz
      show (if x ≤ 127 then _ else _) = _
      rw [if_neg (by omega)]
  have hf : fromBytes c (st :: data) = .bad (st :: data) := by
    cases c <;> simp only [Cls.length] at hl
    case noteOff => exact two _ (by omega)
    case noteOn => exact two _ (by omega)
    case keyPressure => exact two _ (by omega)
    case cc => exact two _ (by omega)
    case pc => exact one _ (by omega)
    case chanPressure => exact one _ (by omega)
    case bend =>
      obtain ⟨z, hz, hz'⟩ := hbend rfl
      have hl2 : data.length = 2 := by omega
      match data, hl2, hz with
      | [x, y], _, hz =>
        simp at hz
        subst hz
        show (if (y <<< 7) ||| x ≤ 16383 then _ else _) = _
        have h1 : y <<< 7 ≤ (y <<< 7) ||| x := Nat.left_le_or
        have h2 : y <<< 7 = y * 128 := by rw [Nat.shiftLeft_eq]
        rw [if_neg (by omega)]
    case mtc =>
      have hl1 : data.length = 1 := by omega
      match data, hl1, hb with
      | [x], _, ⟨z, hz, hz'⟩ =>
        simp at hz
        show (if x >>> 4 ≤ 7 ∧ x &&& 15 ≤ 0x0F then _ else _) = _
        have h2 : x >>> 4 = x / 16 := by rw [Nat.shiftRight_eq_div_pow]
        rw [if_neg (by omega)]
    case sysex => omega
    all_goals
      have : data = [] := List.length_eq_zero_iff.1 (by omega)
      subst this
      obtain ⟨_, h, _⟩ := hb
      simp at h
  simp only [he, hsl, hf, if_true]
  rfl

/-- A pitch bend message which is interrupted by another message is not noticed: the status byte is taken for data. -/
theorem C152_bend_witness :
    parse [.bend, .noteOn] [0] [0xE0, 0x90, 0x40, 0x7F] = (some (.bend 8336 (some 0)), 3) := by decide +kernel

/-! ### Names of notes -/

theorem c150_parse_append (a b : List Char) (acc n : Nat) (h : parseNat a acc = some n) : parseNat (a ++ b) acc = parseNat b n := by
  induction a generalizing acc with
  | nil => simp only [parseNat, Option.some.injEq] at h; subst h; rfl
  | cons c a ih =>
    simp only [List.cons_append, parseNat] at *
    split at h
    · rename_i hc; rw [if_pos hc]; exact ih _ h
    · simp at h

theorem c150_digit : ∀ d < 10, '0' ≤ Char.ofNat (48 + d) ∧ Char.ofNat (48 + d) ≤ '9' ∧ (Char.ofNat (48 + d)).toNat - 48 = d ∧
    Char.ofNat (48 + d) ≠ '-' ∧ Char.ofNat (48 + d) ≠ '+' ∧ Char.ofNat (48 + d) ≠ '#' ∧ Char.ofNat (48 + d) ≠ 'b' := by decide

theorem c150_digits (n : Nat) : parseNat (digits n) 0 = some n ∧
    ∃ d cs, d < 10 ∧ digits n = Char.ofNat (48 + d) :: cs := by
  induction n using Nat.strongRecOn with
  | _ n ih =>
    rw [digits]
    by_cases h : n < 10
    · rw [dif_pos h]
      obtain ⟨h1, h2, h3, -⟩ := c150_digit n h
      refine ⟨?_, n, [], h, rfl⟩
      simp only [parseNat]
      rw [if_pos ⟨h1, h2⟩, h3]; simp
    · rw [dif_neg h]
      obtain ⟨i1, d, cs, hd, i2⟩ := ih (n / 10) (by omega)
      refine ⟨?_, d, cs ++ [Char.ofNat (48 + n % 10)], hd, by rw [i2]; rfl⟩
      rw [c150_parse_append _ _ _ _ i1]
      obtain ⟨h1, h2, h3, -⟩ := c150_digit (n % 10) (by omega)
      simp only [parseNat]
      rw [if_pos ⟨h1, h2⟩, h3]
      congr 1
      omega

theorem c150_octave (o : Int) : parseInt (octaveText o) = some o ∧ ∃ c cs, octaveText o = c :: cs ∧ c ≠ '#' ∧ c ≠ 'b' := by
  cases o with
  | ofNat n =>
    obtain ⟨h1, d, cs, hd, h2⟩ := c150_digits n
    obtain ⟨-, -, -, n1, n2, n3, n4⟩ := c150_digit d hd
    refine ⟨?_, _, cs, h2, n3, n4⟩
    show parseInt (digits n) = _
    rw [h2] at h1 ⊢
    unfold parseInt
    split
    · rename_i heq; simp at heq
    · rename_i heq; simp only [List.cons.injEq] at heq; exact absurd heq.1 n1
    · rename_i heq; simp only [List.cons.injEq] at heq; exact absurd heq.1 n2
    · rw [h1]; rfl
  | negSucc n =>
    obtain ⟨h1, d, cs, hd, h2⟩ := c150_digits (n + 1)
    refine ⟨?_, '-', _, rfl, by decide, by decide⟩
    show (if digits (n + 1) = [] then none else _) = _
    rw [if_neg (by rw [h2]; simp), h1]
    rfl

/-- The name of a note gives its number: twelve per octave, C of octave -1 is 0, sharps one more, flats one less. For upper and lower case letters
and all octaves. -/
theorem C150_notes (letter : Char) (semi : Int) (hs : semitone letter = some semi) (acc : Accidental) (octave : Int) :
    noteParser (letter :: acc.text ++ octaveText octave) = some (12 * (octave + 1) + semi + acc.shift) := by
  obtain ⟨h1, c, cs, h2, h3, h4⟩ := c150_octave octave
  have key : ∀ (b : Char) (rest : List Char) (sh : Int), sharpen b = sh → parseInt (if sh = 0 then b :: rest else rest) = some octave →
      noteParser (letter :: b :: rest) = some (12 * (octave + 1) + semi + sh) := by
    intro b rest sh hb hp
    unfold semitone at hs
    unfold noteParser
    dsimp only
    rw [hb, hp]
    split at hs <;> first
      | (cases hs; done)
      | (cases hs
         rw [if_neg (by decide)]
         show some (_ : Int) = _
         congr 1
         show octave * 12 + _ + sh = _
         omega)
  cases acc with
  | none =>
    simp only [Accidental.text, Accidental.shift]
    rw [h2] at h1 ⊢
    have hsh : sharpen c = 0 := by simp [sharpen, h3, h4]
    exact key c cs 0 hsh (by simpa using h1)
  | sharp => exact key '#' _ 1 rfl (by simpa using h1)
  | flat => exact key 'b' _ (-1) rfl (by simpa using h1)

/-- Texts which do not begin with the letter of a note, or which have no digit, are refused. -/
theorem C150_notes_refused (note : List Char) (h : (∀ c, note.head? = some c → ¬ ('A' ≤ c.toUpper ∧ c.toUpper ≤ 'G')) ∨ ∀ c ∈ note, ¬ ('0' ≤ c ∧ c ≤ '9')) :
    noteParser note = none := by
  have nodigit : ∀ (cs : List Char) (acc : Nat), cs ≠ [] → (∀ c ∈ cs, ¬ ('0' ≤ c ∧ c ≤ '9')) → parseNat cs acc = none := by
    intro cs acc hne hc
    cases cs with
    | nil => exact absurd rfl hne
    | cons c cs => simp only [parseNat]; rw [if_neg (hc c List.mem_cons_self)]
  have noint : ∀ cs : List Char, (∀ c ∈ cs, ¬ ('0' ≤ c ∧ c ≤ '9')) → parseInt cs = none := by
    intro cs hc
    unfold parseInt
    split
    · rfl
    · split
      · rfl
      · rename_i hne
        rw [nodigit _ _ hne fun c hx => hc c (List.mem_cons_of_mem _ hx)]; rfl
    · split
      · rfl
      · rename_i hne
        rw [nodigit _ _ hne fun c hx => hc c (List.mem_cons_of_mem _ hx)]; rfl
    · rename_i hne _ _
      rw [nodigit _ _ hne hc]; rfl
  match note, h with
  | [], _ => rfl
  | [_], _ => rfl
  | a :: b :: rest, h =>
    unfold noteParser
    dsimp only
    split
    · rfl
    · rename_i hidx
      rcases h with h | h
      · refine absurd ?_ (h a rfl)
        simp only [Decidable.not_not] at hidx
        have e1 : ('A').toNat = 65 := rfl
        have e2 : ('G').toNat = 71 := rfl
        constructor
        · show ('A').toNat ≤ a.toUpper.toNat
          omega
        · show a.toUpper.toNat ≤ ('G').toNat
          omega
      · rw [noint]
        · rfl
        · intro c hc
          split at hc
          · exact h c (List.mem_cons_of_mem _ hc)
          · exact h c (List.mem_cons_of_mem _ (List.mem_cons_of_mem _ hc))

/-! ### Examples -/

example : noteParser "C4".toList = some 60 ∧ noteParser "A4".toList = some 69 ∧ noteParser "C#4".toList = some 61 ∧ noteParser "bb-1".toList = some 10 ∧
    noteParser "H4".toList = none := by decide +kernel

example : octaveText (-12) = "-12".toList ∧ semitone 'B' = some 11 := by
  constructor
  · show '-' :: digits 12 = _
    rw [digits, dif_neg (by decide), digits]; rfl
  · rfl

example :
    let imports : List Cls := [.cc, .clock, .bend, .sysex]
    registry Cls.mask imports = [.clock, .sysex, .cc, .bend] ∧
      receives imports [1, 2] 6 (toBytes 1 (.bend 9000 none) ++ toBytes 3 (.two .cc 7 8 none) ++ toBytes 0 (.single .clock) ++
        toBytes 0 (.sysex [0, 32, 51] [1, 2]) ++ toBytes 2 (.two .cc 1 127 none)) =
        ([.bend 9000 (some 1), .single .clock, .sysex [0, 32, 51] [1, 2], .two .cc 1 127 (some 2)], []) ∧
      parse imports [0] (toBytes 0 (.two .noteOn 60 127 none)) = (some (.unknown 0x90), 1) ∧
      parse imports [0] [0xB0, 0x07, 0xB0, 1, 2] = (some (.bad [0xB0, 7, 0xB0]), 3) := by decide +kernel

example : Valid (.bend 9000 none) ∧ Valid (.sysex [0, 32, 51] [1, 2]) ∧ (Msg.bend 9000 none).cls = some .bend := by
  refine ⟨by show 9000 < 16384; omega, ⟨.inr ⟨32, 51, rfl, by omega, by omega⟩, ?_⟩, rfl⟩
  intro x hx
  simp at hx
  omega

end PySwitch.Props
