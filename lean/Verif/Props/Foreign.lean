import Verif.Lemmas.Foreign
/-
Properties C91, C92, C93: MIDI messages PySwitch does not know, in the input stream.
-/
namespace PySwitch.Props
open PySwitch.Wire PySwitch.Wire.Spec

/-! ### C91 -/

/-- C91. If the buffer holds the bytes of any sequence of known and unknown messages, the answers of `receive()` are
exactly the known messages on the listened channels, in order, with an "unknown event" in place of each unknown message,
and then `None`. -/
theorem C91_stream (channels : List Nat) (bufSize : Nat) (items : List Item) (hok : ∀ i ∈ items, i.Ok) (n : Nat) :
    (receives channels bufSize n (itemBytes items)).1
      = ((answers channels items).map some ++ List.replicate n none).take n := by
  suffices h : ∀ junk, Data7 junk → (receives channels bufSize n (junk ++ itemBytes items)).1
      = ((answers channels items).map some ++ List.replicate n none).take n by simpa using h [] (by simp [Data7])
  intro junk hj
  induction n generalizing items junk with
  | zero => simp [receives]
  | succ n ih =>
    obtain ⟨d, rest, j2, e1, e2, e3, e4, -, -, e7⟩ := receive_cut channels bufSize items hok junk
      (junk ++ itemBytes items) [] [] (.inr rfl) hj (by simp) (.inl rfl)
    rw [List.append_nil] at e4
    simp only [receives]
    rw [e4, ih rest (fun i hi => hok i (by rw [e1]; simp [hi])) j2 e3]
    generalize (receive channels bufSize (junk ++ itemBytes items) []).1 = r at *
    rw [e1, answers_append, ← e2]
    cases r with
    | none =>
      have := (e7 rfl).1 rfl
      subst this
      simp [List.replicate_succ, answers]
    | some m =>
      simp only [Option.toList, List.cons_append, List.nil_append, List.map_cons, List.take_succ_cons,
        List.replicate_succ', ← List.append_assoc]
      rw [List.take_append_of_le_length (l₂ := [none]) (by simp)]

/-- C91. The known messages among the answers are exactly those which would have been received without the unknown ones. -/
theorem C91_known (channels : List Nat) (items : List Item) (hok : ∀ i ∈ items, i.Ok) :
    (answers channels items).filter (fun m => !IsUnknown m) = knownMessages channels items :=
  known_answers channels items hok

/-- C91. Without SysEx messages, this is so for every way the bytes arrive: however few bytes each read returns, what has
been returned is always the answers for the first items; and after enough polls (reading at least one byte each) the
answers for all of them. The unknown messages are MIDI messages with at most two data bytes. -/
theorem C91_split (channels : List Nat) (bufSize : Nat) (hB : 5 ≤ bufSize) (items : List Item) (hok : ∀ i ∈ items, i.Ok)
    (hs : ∀ i ∈ items, i.NoSysex) (hd : ∀ st data, Item.foreign st data ∈ items → data.length ≤ 2)
    (ks : List Nat) (hk : ∀ k ∈ ks, 1 ≤ k) :
    (Port.polls channels bufSize ⟨[], itemBytes items⟩ ks).1 <+: answers channels items ∧
      ((itemBytes items).length + items.length ≤ ks.length →
        (Port.polls channels bufSize ⟨[], itemBytes items⟩ ks).1 = answers channels items) := by
  obtain ⟨d, rest, e1, e2, e3⟩ := polls_cut channels bufSize ks items hok hs hd ⟨[], itemBytes items⟩ []
    (by simp [Data7]) (by simp) (by simp)
  constructor
  · rw [e2]
    refine ⟨answers channels rest, ?_⟩
    rw [← answers_append, ← e1]
  · intro hl
    have := e3 hB hk hl
    subst this
    rw [e2, e1, List.append_nil]

/-- Notes and clock bytes between a Control Change and a Program Change. -/
def mixedItems : List Item :=
  [.foreign 0x90 [60, 100], .known (.cc 7 100 (some 0)), .foreign 0xF8 [], .foreign 0xFE [], .known (.pc 3 (some 0)),
   .foreign 0xE0 [0, 64]]

example : (∀ i ∈ mixedItems, i.Ok) ∧ (∀ i ∈ mixedItems, i.NoSysex) ∧
    (∀ st data, Item.foreign st data ∈ mixedItems → data.length ≤ 2) := by
  refine ⟨?_, ?_, ?_⟩
  · simp [mixedItems, Item.Ok, Valid, Data7]
  · simp [mixedItems, Item.NoSysex, IsChannelMsg]
  · intro st data h
    simp [mixedItems] at h
    rcases h with h | h | h | h <;> simp [h.2]

example : knownMessages [0] mixedItems = [.cc 7 100 (some 0), .pc 3 (some 0)] := by decide +kernel
example : (Port.polls [0] 100 ⟨[], itemBytes mixedItems⟩ (List.replicate 30 2)).1 =
    [.unknown 0x90, .cc 7 100 (some 0), .unknown 0xF8, .unknown 0xFE, .pc 3 (some 0), .unknown 0xE0] := by decide +kernel

/-! ### C92 -/

/-- C92 (partial). Real-time bytes (clock, start, stop, active sensing: 248..255) do not disturb the messages around them if
they occur between messages. Missing: MIDI allows them anywhere, see `C92_inside_control_change` and
`C92_inside_sysex`. -/
theorem C92_between_partial (channels : List Nat) (bufSize : Nat) (ms : List Msg) (hv : ∀ m ∈ ms, Valid m)
    (items : List Item) (hmix : ∀ i ∈ items, (∃ m ∈ ms, i = .known m) ∨ ∃ b, 248 ≤ b ∧ b < 256 ∧ i = .foreign b [])
    (hms : knownMessages channels items = ms.filter (Heard channels)) (n : Nat) (hn : items.length ≤ n) :
    ((receives channels bufSize n (itemBytes items)).1.filterMap id).filter (fun m => !IsUnknown m) =
      ms.filter (Heard channels) := by
  have hok : ∀ i ∈ items, i.Ok := by
    intro i hi
    rcases hmix i hi with ⟨m, hm, rfl⟩ | ⟨b, h1, h2, rfl⟩
    · exact hv m hm
    · refine ⟨by omega, h2, by omega, by omega, by omega, by simp [Data7]⟩
  have hlen : (answers channels items).length ≤ items.length := by
    clear hmix hms hn hok
    induction items with
    | nil => simp [answers]
    | cons i items ih =>
      rw [answers_cons, List.length_append, List.length_cons]
      have : (i.answer channels).length ≤ 1 := by
        cases i with
        | known m => simp only [Item.answer]; split <;> simp
        | foreign st data => simp [Item.answer]
      omega
  rw [C91_stream channels bufSize items hok n, ← hms, ← C91_known channels items hok]
  have hnone : ∀ k, (List.replicate k (none : Option Msg)).filterMap id = [] := by
    intro k
    induction k with
    | zero => rfl
    | succ k ih => rw [List.replicate_succ, List.filterMap_cons]; exact ih
  have hsome : ∀ l : List Msg, (l.map some).filterMap id = l := by
    intro l
    induction l with
    | nil => rfl
    | cons x l ih => simp [ih]
  rw [List.take_append, List.filterMap_append, List.take_of_length_le (by simp; omega), hsome, List.take_replicate, hnone,
    List.append_nil]

/-- C92. The full statement is false of the code: a clock byte inside a Control Change message destroys it, however often
the port is read. -/
theorem C92_inside_control_change (n : Nat) :
    itemBytes [.known (.cc 7 100 (some 0))] = [176, 7, 100] ∧
      ((receives [0] 100 n [176, 7, 0xF8, 100]).1.filterMap id).filter (fun m => !IsUnknown m) <+: [.bad [176, 7, 0xF8]] := by
  refine ⟨rfl, ?_⟩
  have hempty : ∀ n, (receives [0] 100 n []).1 = List.replicate n none := by
    intro n
    have := C91_stream [0] 100 [] (by simp) n
    simpa [itemBytes, answers] using this
  match n with
  | 0 => simp [receives]
  | 1 => simp only [receives]; decide +kernel
  | n + 2 =>
    have h1 : receive [0] 100 [176, 7, 0xF8, 100] [] = (some (.bad [176, 7, 0xF8]), [100]) := by decide +kernel
    have h2 : receive [0] 100 [100] [] = (none, []) := by decide +kernel
    simp only [receives, h1, h2, hempty]
    have hnone : ∀ k, (List.replicate k (none : Option Msg)).filterMap id = [] := by
      intro k
      induction k with
      | zero => rfl
      | succ k ih => rw [List.replicate_succ, List.filterMap_cons]; exact ih
    simp [hnone, IsUnknown]

/-- C92. Likewise for SysEx messages, the ones all values of a Kemper come in: nothing but the end byte is reported, as
unknown. -/
theorem C92_inside_sysex (n : Nat) :
    itemBytes [.known (.sysex [0, 0x20, 0x33] [2, 127, 1, 0, 50, 3, 0, 1])] =
        [240, 0, 0x20, 0x33, 2, 127, 1, 0, 50, 3, 0, 1, 247] ∧
      ((receives [0] 100 n [240, 0, 0x20, 0x33, 2, 127, 0xF8, 1, 0, 50, 3, 0, 1, 247]).1.filterMap id) <+:
        [.unknown 247] := by
  refine ⟨rfl, ?_⟩
  have hempty : ∀ n, (receives [0] 100 n []).1 = List.replicate n none := by
    intro n
    have := C91_stream [0] 100 [] (by simp) n
    simpa [itemBytes, answers] using this
  match n with
  | 0 => simp [receives]
  | 1 => simp only [receives]; decide +kernel
  | 2 => simp only [receives]; decide +kernel
  | n + 3 =>
    have h1 : receive [0] 100 [240, 0, 0x20, 0x33, 2, 127, 0xF8, 1, 0, 50, 3, 0, 1, 247] [] =
        (none, [1, 0, 50, 3, 0, 1, 247]) := by decide +kernel
    have h2 : receive [0] 100 [1, 0, 50, 3, 0, 1, 247] [] = (some (.unknown 247), []) := by decide +kernel
    have h3 : receive [0] 100 [] [] = (none, []) := by decide +kernel
    simp only [receives, h1, h2, h3, hempty]
    have hnone : ∀ k, (List.replicate k (none : Option Msg)).filterMap id = [] := by
      intro k
      induction k with
      | zero => rfl
      | succ k ih => rw [List.replicate_succ, List.filterMap_cons]; exact ih
    simp [hnone]

/-- C92. Running status (leaving out a repeated status byte, as MIDI allows) is not understood: all messages but the first
one are lost. -/
theorem C92_running_status (channels : List Nat) (bufSize : Nat) (ch control value : Nat) (hch : ch ∈ channels)
    (h : Valid (.cc control value (some ch))) (more : List Nat) (hm : Data7 more) (n : Nat) :
    (receives channels bufSize (n + 1) (wire (.cc control value (some ch)) ++ more)).1 =
      some (.cc control value (some ch)) :: List.replicate n none := by
  have hh : Heard channels (.cc control value (some ch)) = true := by simpa [Heard] using hch
  have h1 := loop_complete channels [] more (.cc control value (some ch)) h
    ((wire (.cc control value (some ch)) ++ more).length) 0
  simp only [List.nil_append, List.length_nil, Nat.zero_add, hh, if_true] at h1
  have h2 : receive channels bufSize (wire (.cc control value (some ch)) ++ more) [] =
      (some (.cc control value (some ch)), more) := by
    have hb : (if (wire (.cc control value (some ch)) ++ more).length < bufSize
        then wire (.cc control value (some ch)) ++ more ++ [] else wire (.cc control value (some ch)) ++ more) =
        wire (.cc control value (some ch)) ++ more := by split <;> simp
    simp only [receive, hb, fromMessageBytes, h1]
    simp [wire]
  have h3 : ∀ n junk, Data7 junk → (receives channels bufSize n junk).1 = List.replicate n none := by
    intro n
    induction n with
    | zero => intro _ _; rfl
    | succ n ih =>
      intro junk hj
      obtain ⟨d, rest, j2, e1, e2, e3, e4, -⟩ := receive_cut channels bufSize [] (by simp) junk junk [] [] (.inr rfl) hj
        (by simp [itemBytes]) (.inl rfl)
      have hd : d = [] ∧ rest = [] := by simpa using e1.symm
      rw [hd.1] at e2
      rw [hd.2] at e4
      have hr : (receive channels bufSize junk []).1 = none := by
        cases hq : (receive channels bufSize junk []).1 with
        | none => rfl
        | some m => rw [hq] at e2; simp [answers] at e2
      have h5 : (receive channels bufSize junk []).2 = j2 := by simpa [itemBytes] using e4
      simp only [receives, hr, h5, ih j2 e3, List.replicate_succ]
  simp only [receives, h2, h3 n more hm]

example : Valid (.cc 7 1 (some 0)) ∧ Data7 [7, 2, 7, 3] := by simp [Valid, Data7]
example : itemBytes [.foreign 0xF8 [], .known (.cc 7 1 (some 0))] = [0xF8, 176, 7, 1] := by decide
example : knownMessages [0] [.foreign 0xF8 [], .known (.cc 7 1 (some 0))] = [Msg.cc 7 1 (some 0)].filter (Heard [0]) := by
  decide +kernel

/-! ### C93 -/

/-- C93 (partial). After any sequence of channel messages and unknown messages with at most two data bytes has arrived, in
any portions, the input goes on: there are polls after which the answers for a further item arriving then are returned.
Missing: more data bytes without a status byte, see `C93_stuck`. -/
theorem C93_goes_on_partial (channels : List Nat) (bufSize : Nat) (hB : 5 ≤ bufSize) (items more : List Item)
    (hok : ∀ i ∈ items ++ more, i.Ok) (hs : ∀ i ∈ items ++ more, i.NoSysex)
    (hd : ∀ st data, Item.foreign st data ∈ items ++ more → data.length ≤ 2)
    (ks : List Nat) (hk : ∀ k ∈ ks, 1 ≤ k) :
    ∃ ks', (Port.polls channels bufSize ⟨[], itemBytes (items ++ more)⟩ (ks ++ ks')).1 =
      answers channels items ++ answers channels more := by
  refine ⟨List.replicate ((itemBytes (items ++ more)).length + (items ++ more).length) 1, ?_⟩
  rw [(C91_split channels bufSize hB (items ++ more) hok hs hd _ ?_).2 (by simp), answers_append]
  intro k hk'
  simp at hk'
  rcases hk' with h | h
  · exact hk k h
  · omega

/-- C93. The full statement is false of the code, for every buffer size: if the buffer gets filled with data bytes, followed
by the first byte of a Control Change message at its end, nothing is read or returned any more, whatever arrives. -/
theorem C93_stuck (channels : List Nat) (bufSize ch : Nat) (hB : 0 < bufSize) (hch : ch < 16) (pending ks : List Nat) :
    Port.polls channels bufSize ⟨List.replicate (bufSize - 1) 0 ++ [176 + ch], pending⟩ ks =
      ([], ⟨List.replicate (bufSize - 1) 0 ++ [176 + ch], pending⟩) := by
  have hpoll : ∀ k, Port.poll channels bufSize ⟨List.replicate (bufSize - 1) 0 ++ [176 + ch], pending⟩ k =
      (none, ⟨List.replicate (bufSize - 1) 0 ++ [176 + ch], pending⟩) := by
    intro k
    have hlen : (List.replicate (bufSize - 1) 0 ++ [176 + ch]).length = bufSize := by simp; omega
    have hj : Data7 (List.replicate (bufSize - 1) 0) := by
      intro b hb
      rw [List.mem_replicate] at hb
      omega
    have hv : Valid (.cc 0 0 (some ch)) := ⟨by omega, by omega, hch⟩
    have hl := loop_junk channels [] (List.replicate (bufSize - 1) 0) [176 + ch] hj
      (.inr ⟨176 + ch, [], rfl, (status_cc ch hch).1⟩) bufSize 0
    have hp := (loop_partial' channels (List.replicate (bufSize - 1) 0) [176 + ch] [0, 0] (.cc 0 0 (some ch)) hv trivial rfl
      (by simp) (by simp) bufSize 0).1
    simp only [List.nil_append, List.length_nil, Nat.zero_add] at hl
    simp only [List.length_replicate] at hp hl
    simp only [Port.poll, receive, hlen, Nat.lt_irrefl, if_false, fromMessageBytes,
      hl, hp]
    simp
  induction ks with
  | nil => rfl
  | cons k ks ih =>
    simp only [Port.polls, hpoll, ih]
    rfl

/-- C93. This is reached from an empty buffer if the first read returns that many bytes: no message arriving later is ever
returned. -/
theorem C93_lost (channels : List Nat) (bufSize ch : Nat) (hB : 0 < bufSize) (hch : ch < 16) (later : List Nat) (k : Nat)
    (hk : bufSize ≤ k) (ks : List Nat) :
    (Port.polls channels bufSize ⟨[], List.replicate (bufSize - 1) 0 ++ (176 + ch) :: later⟩ (k :: ks)).1 = [] := by
  have e : List.replicate (bufSize - 1) 0 ++ (176 + ch) :: later =
      (List.replicate (bufSize - 1) 0 ++ [176 + ch]) ++ later := by simp
  have hlen : (List.replicate (bufSize - 1) 0 ++ [176 + ch]).length = bufSize := by simp; omega
  have hpoll : Port.poll channels bufSize ⟨[], List.replicate (bufSize - 1) 0 ++ (176 + ch) :: later⟩ k =
      Port.poll channels bufSize ⟨List.replicate (bufSize - 1) 0 ++ [176 + ch], later⟩ k := by
    have hmin : min k bufSize = (List.replicate (bufSize - 1) 0 ++ [176 + ch]).length := by omega
    have hmin0 : min k (bufSize - bufSize) = 0 := by omega
    rw [e]
    simp only [Port.poll, receive, List.length_nil, Nat.sub_zero, hmin, List.take_left', List.drop_left', hB, if_true,
      List.nil_append, hlen, Nat.lt_irrefl, if_false, hmin0, List.take_zero, List.drop_zero]
  have hs : ∀ ks, (Port.polls channels bufSize ⟨List.replicate (bufSize - 1) 0 ++ [176 + ch], later⟩ ks).1 = [] :=
    fun ks => congrArg Prod.fst (C93_stuck channels bufSize ch hB hch later ks)
  have := hs (k :: ks)
  simp only [Port.polls] at this ⊢
  rw [hpoll]
  exact this

/-- With the buffer of 100 bytes of the devices. -/
example : (Port.polls [0] 100 ⟨[], List.replicate 99 0 ++ [176, 7, 100, 176, 7, 101]⟩ (List.replicate 20 100)).1 = [] := by
  decide +kernel

end PySwitch.Props
