import Verif.Lemmas.Wire
/-
Properties C04, C05, C06: the MIDI wire format.
-/
namespace PySwitch.Props
open PySwitch.Wire PySwitch.Wire.Spec

/-- The serialiser produces the MIDI 1.0 bytes of a valid message. -/
theorem C04_bytes (ch : Nat) (m : Msg) (hm : Valid m) (hc : m.channel = none ∨ m.channel = some ch) :
    toBytes ch m = wire m := by
  match m, hm with
  | .cc control value (some c), hm =>
    simp [Msg.channel] at hc
    subst hc
    simp only [toBytes, wire, (status_cc c hm.2.2).2.2.2.2]
  | .pc patch (some c), hm =>
    simp [Msg.channel] at hc
    subst hc
    simp only [toBytes, wire, (status_pc c hm.2).2.2.2.2]
  | .sysex [a] data, hm => simp [toBytes, wire]
  | .sysex [0, a, b] data, hm => simp [toBytes, wire]

/-- C04: parsing the serialised bytes of a valid message, followed by anything, returns the message and
consumes exactly its bytes. -/
theorem C04_round_trip (channels : List Nat) (ch : Nat) (m : Msg) (rest : List Nat) (hm : Valid m)
    (hc : m.channel = none ∨ m.channel = some ch) (hl : ch ∈ channels) :
    fromMessageBytes channels (toBytes ch m ++ rest) = (some m, (toBytes ch m).length) := by
  rw [C04_bytes ch m hm hc]
  have hh : Heard channels m = true := by
    match m, hm with
    | .cc control value (some c), hm => simp [Msg.channel] at hc; simp [Heard, hc, hl]
    | .pc patch (some c), hm => simp [Msg.channel] at hc; simp [Heard, hc, hl]
    | .sysex [a] data, hm => rfl
    | .sysex [0, a, b] data, hm => rfl
  have := loop_complete channels [] rest m hm ((wire m ++ rest).length) 0
  simp only [List.nil_append, List.length_nil, Nat.zero_add] at this
  rw [fromMessageBytes, this, if_pos hh]

/-- C04: no message can be mistaken for another one. -/
theorem C04_injective (ch : Nat) (m₁ m₂ : Msg) (h₁ : Valid m₁) (h₂ : Valid m₂)
    (c₁ : m₁.channel = none ∨ m₁.channel = some ch) (c₂ : m₂.channel = none ∨ m₂.channel = some ch)
    (h : toBytes ch m₁ = toBytes ch m₂) : m₁ = m₂ := by
  have e₁ := C04_round_trip [ch] ch m₁ [] h₁ c₁ (by simp)
  have e₂ := C04_round_trip [ch] ch m₂ [] h₂ c₂ (by simp)
  rw [h, e₂] at e₁
  simpa using (congrArg Prod.fst e₁).symm

example : Valid (.cc 47 12 (some 3)) ∧ (Msg.cc 47 12 (some 3)).channel = some 3 := by
  simp [Valid, Msg.channel]
example : Valid (.sysex [0x00, 0x20, 0x33] [2, 127, 1, 0, 50, 3, 0, 1]) := by simp [Valid, Data7]

/-- C05: if the buffer holds the bytes of a list of valid messages, the successive answers of `receive()`
are exactly the messages for the listened channels, in order, and then `None`. -/
theorem C05_stream (channels : List Nat) (bufSize : Nat) (ms : List Msg) (hv : ∀ m ∈ ms, Valid m)
    (n : Nat) :
    (receives channels bufSize n (stream ms)).1
      = ((ms.filter (Heard channels)).map some ++ List.replicate n none).take n := by
  have cut : ∀ ms : List Msg, CutOk ms (stream ms).length := by
    intro ms
    induction ms with
    | nil => trivial
    | cons m ms ih =>
      rw [stream_cons, CutOk, List.length_append, if_neg (by omega), Nat.add_sub_cancel_left]
      exact ih
  induction n generalizing ms with
  | zero => simp [receives]
  | succ n ih =>
    obtain ⟨d, rest, h1, h2, h3, -, h5⟩ := receive_stream channels bufSize (stream ms) [] []
      (.inr rfl) ms hv (by simp) (by simpa using cut ms)
    rw [List.append_nil] at h3
    simp only [receives]
    rw [h3, ih rest (fun m hm => hv m (by rw [h1]; simp [hm]))]
    generalize (receive channels bufSize (stream ms) []).1 = r at *
    rw [h1, List.filter_append, ← h2]
    cases r with
    | none =>
      have := (h5 rfl).1 rfl
      subst this
      simp [List.replicate_succ]
    | some m =>
      simp only [Option.toList, List.cons_append, List.nil_append, List.map_cons, List.take_succ_cons,
        List.replicate_succ', ← List.append_assoc]
      rw [List.take_append_of_le_length (l₂ := [none]) (by simp)]

example : ∀ m ∈ [Msg.cc 32 3 (some 0), .pc 17 (some 0), .sysex [0, 0x20, 0x33] [2, 127, 126]], Valid m := by
  simp [Valid, Data7]

/-- C06, safety part, proved if no read ends inside a SysEx message (in particular if the stream consists
of channel messages, see below): whatever has been returned so far is the listened part of an initial piece
of the message list, and the bytes of all others are still there, unchanged and in order. -/
theorem C06_split_reads_safe_partial (channels : List Nat) (bufSize : Nat) (ms : List Msg)
    (hv : ∀ m ∈ ms, Valid m) (ks : List Nat)
    (hc : ∀ j, j ≤ ks.length → CutOk ms ((stream ms).length
      - (Port.polls channels bufSize ⟨[], stream ms⟩ (ks.take j)).2.pending.length)) :
    ∃ done rest, ms = done ++ rest ∧
      (Port.polls channels bufSize ⟨[], stream ms⟩ ks).1 = done.filter (Heard channels) ∧
      (Port.polls channels bufSize ⟨[], stream ms⟩ ks).2.inBuf
        ++ (Port.polls channels bufSize ⟨[], stream ms⟩ ks).2.pending = stream rest := by
  obtain ⟨d, rest, h1, h2, h3, -⟩ := polls_stream channels bufSize ks ⟨[], stream ms⟩ ms hv (by simp) hc
  exact ⟨d, rest, h1, h2, h3⟩

/-- C06, liveness part: with a buffer of at least three bytes and reads of at least one byte, after enough
polls all messages have been returned, if no read ends inside a SysEx message. -/
theorem C06_split_reads_complete_partial (channels : List Nat) (bufSize : Nat) (hB : 3 ≤ bufSize)
    (ms : List Msg) (hv : ∀ m ∈ ms, Valid m) (ks : List Nat) (hk : ∀ k ∈ ks, 1 ≤ k)
    (hl : (stream ms).length + ms.length ≤ ks.length)
    (hc : ∀ j, j ≤ ks.length → CutOk ms ((stream ms).length
      - (Port.polls channels bufSize ⟨[], stream ms⟩ (ks.take j)).2.pending.length)) :
    (Port.polls channels bufSize ⟨[], stream ms⟩ ks).1 = ms.filter (Heard channels) := by
  obtain ⟨d, rest, h1, h2, -, h4⟩ := polls_stream channels bufSize ks ⟨[], stream ms⟩ ms hv (by simp) hc
  have := h4 hB hk hl
  subst this
  rw [h2, h1, List.append_nil]

/-- C06 for streams of channel messages (everything but SysEx): every split into reads is fine. -/
theorem C06_channel_messages_any_split_partial (channels : List Nat) (bufSize : Nat) (hB : 3 ≤ bufSize)
    (ms : List Msg) (hv : ∀ m ∈ ms, Valid m) (hm : ∀ m ∈ ms, IsChannelMsg m)
    (ks : List Nat) (hk : ∀ k ∈ ks, 1 ≤ k) (hl : (stream ms).length + ms.length ≤ ks.length) :
    (Port.polls channels bufSize ⟨[], stream ms⟩ ks).1 = ms.filter (Heard channels) :=
  C06_split_reads_complete_partial channels bufSize hB ms hv ks hk hl (fun _ _ => cutOk_channel ms hm _)

example : ∀ m ∈ [Msg.cc 32 3 (some 0), .pc 17 (some 0), .cc 7 1 (some 5)], Valid m ∧ IsChannelMsg m := by
  simp [Valid, IsChannelMsg]

/-- The full C06 is false of the code: a SysEx message whose bytes arrive in two reads is lost (and its
end byte is reported as an unknown event), however often the port is polled. -/
theorem C06_sysex_split_lost :
    ∃ (channels : List Nat) (bufSize : Nat) (ms : List Msg), 3 ≤ bufSize ∧
      (∀ m ∈ ms, Valid m ∧ (wire m).length ≤ bufSize) ∧ ms.filter (Heard channels) = ms ∧ ms ≠ [] ∧
      ∀ ks : List Nat, ∀ m ∈ ms, m ∉ (Port.polls channels bufSize ⟨[], stream ms⟩ (6 :: 100 :: ks)).1 := by
  refine ⟨[0], 60, [.sysex [0, 0x20, 0x33] [2, 127, 1, 0, 50, 3, 0, 1]], by decide,
    by simp [Valid, Data7, wire], rfl, by simp, ?_⟩
  intro ks m hm
  simp only [List.mem_singleton] at hm
  subst hm
  have h1 : Port.poll [0] 60 ⟨[], stream [.sysex [0, 0x20, 0x33] [2, 127, 1, 0, 50, 3, 0, 1]]⟩ 6
      = (none, ⟨[], [1, 0, 50, 3, 0, 1, 247]⟩) := by decide +kernel
  have h2 : Port.poll [0] 60 ⟨[], [1, 0, 50, 3, 0, 1, 247]⟩ 100 = (some (.unknown 247), ⟨[], []⟩) := by
    decide +kernel
  have h3 : ∀ ks : List Nat, (Port.polls [0] 60 ⟨[], []⟩ ks).1 = [] := by
    intro ks
    induction ks with
    | nil => rfl
    | cons k ks ih =>
      have e : Port.poll [0] 60 ⟨[], []⟩ k = (none, ⟨[], []⟩) := by
        have : receive [0] 60 [] [] = (none, []) := by decide +kernel
        simp [Port.poll, this]
      simp [Port.polls, e, ih]
  simp [Port.polls, h1, h2, h3]

end PySwitch.Props
