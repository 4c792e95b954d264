import Verif.Lemmas.BridgeMsg
import Verif.Lemmas.BridgeCrc

/-!
C119: what is sent over the file transfer bridge is legal in a SysEx message and decodes to itself.
C120: damaged messages are recognised.
-/

namespace PySwitch.Props
open PySwitch.Bridge PySwitch.Spec.Bridge PySwitch.Lemmas.Bridge

/-! ### C119 -/

/-- C119: bytes, packed for MIDI, are half-bytes, as few as possible, and unpack to the bytes again. -/
theorem C119_bytes (data : Bytes) (h : ∀ b ∈ data, b < 256) :
    unpackBytes (packBytes data) = data ∧ (∀ b ∈ packBytes data, b < 128) ∧
    8 * data.length ≤ 7 * (packBytes data).length ∧ 7 * (packBytes data).length < 8 * data.length + 7 := by
  refine ⟨unpack_pack data h, pack_lt data, ?_, ?_⟩ <;> rw [pack_length] <;> omega

example : unpackBytes (packBytes [255, 0, 128, 7, 1, 2, 3, 4]) = [255, 0, 128, 7, 1, 2, 3, 4] ∧
    packBytes [255, 0, 128] = [127, 64, 16, 0] := by decide +kernel

/-- C119: numbers of chunks, sizes and ids decode to themselves, up to 16777215, and take four half-bytes. -/
theorem C119_numbers (n : Nat) (h : n < 16777216) :
    bytes2number (number2bytes n 3) = n ∧ (number2bytes n 3).length = 4 ∧ ∀ b ∈ number2bytes n 3, b < 128 :=
  ⟨number_back n h, number3_length n, number_lt n 3⟩

example : number2bytes 1234567 3 = [9, 53, 80, 112] ∧ bytes2number [9, 53, 80, 112] = 1234567 := by decide +kernel

/-- C119: text (without lone surrogates, and not starting with a byte order mark) decodes to itself. -/
theorem C119_text_partial (s : Str) (h : Sendable s) :
    bytes2string (string2bytes s) = s ∧ ∀ b ∈ string2bytes s, b < 128 := ⟨text_back h, pack_lt _⟩

/-- "aé€😀" with all lengths of UTF-8 sequences. -/
example : Sendable [0x61, 0xE9, 0x20AC, 0xD83D, 0xDE00] ∧
    string2bytes [0x61, 0xE9, 0x20AC, 0xD83D, 0xDE00] ≠ [] ∧
    bytes2string (string2bytes [0x61, 0xE9, 0x20AC, 0xD83D, 0xDE00]) = [0x61, 0xE9, 0x20AC, 0xD83D, 0xDE00] :=
  ⟨⟨.unit _ _ (by decide) (by decide) (.unit _ _ (by decide) (by decide) (.unit _ _ (by decide) (by decide)
    (.pair _ _ _ (by decide) (by decide) .nil))), by decide⟩, by decide +kernel, by decide +kernel⟩

/-- C119, not for every text: a byte order mark at the start is lost, and half of a surrogate pair is replaced. -/
theorem C119_text_witness :
    bytes2string (string2bytes [0xFEFF, 0x61]) = [0x61] ∧ bytes2string (string2bytes [0xD83D]) = [0xFFFD] := by
  decide +kernel

theorem C119.message_lt (c : Nat) (payload : Bytes) (hc : c < 128) (hp : ∀ b ∈ payload, b < 128) :
    ∀ b ∈ message c payload, b < 128 := by
  intro b hb
  simp only [message, List.mem_append, List.mem_singleton] at hb
  rcases hb with (rfl | hb) | hb
  · exact hc
  · exact number_lt _ _ b hb
  · exact hp b hb

/-- All bytes are half-bytes. -/
def C119.Half (l : Bytes) : Prop := ∀ b ∈ l, b < 128

theorem C119.half_append {a b : Bytes} (ha : C119.Half a) (hb : C119.Half b) : C119.Half (a ++ b) := by
  intro x hx
  rcases List.mem_append.1 hx with h | h
  · exact ha x h
  · exact hb x h

/-- Every transmission of the bridge has an id and a type of half-bytes. -/
def C119.Ok (b : Bridge) : Prop :=
  (∀ e ∈ b.sends, C119.Half e.2.id ∧ C119.Half e.2.type) ∧ ∀ e ∈ b.recvs, C119.Half e.2.id

theorem C119.cleanup_ok {now : Nat} {b : Bridge} (h : C119.Ok b) : C119.Ok (cleanup now b) :=
  ⟨fun e he => h.1 e ((List.mem_filter.1 he).1), fun e he => h.2 e ((List.mem_filter.1 he).1)⟩

theorem C119.sendNext_ok {now : Nat} {tx : SendTx} {b : Bridge} (h : C119.Ok b) (ht : C119.Half tx.id ∧ C119.Half tx.type) :
    C119.Ok (sendNextChunk now tx b).1 ∧ ∀ d ∈ sysexOf (sendNextChunk now tx b).2, C119.Half d := by
  refine ⟨⟨fun e he => ?_, h.2⟩, ?_⟩
  · rcases mem_put he with rfl | he
    · exact ht
    · exact h.1 e he
  · simp only [sendNextChunk, sendChunk, sysexOf, List.mem_singleton, forall_eq]
    exact C119.message_lt _ _ (by decide) (C119.half_append (C119.half_append ht.1 (number_lt _ _)) (pack_lt _))

theorem C119.startSend_ok {now : Nat} {path msg : Str} {k : Nat} {type : Bytes} {b : Bridge} (h : C119.Ok b)
    (ht : C119.Half type) : C119.Ok (startSend now path msg k type b).bridge ∧
      ∀ d ∈ sysexOf (startSend now path msg k type b).effs, C119.Half d := by
  have hid : C119.Half (number2bytes b.nextId 3) := number_lt _ _
  simp only [startSend, generateId]
  generalize (if b.nextId + 1 ≥ 16777216 then 0 else b.nextId + 1) = nx
  generalize number2bytes b.nextId 3 = id at *
  generalize htx : SendTx.mk id path ((msg.length + k - 1) / k) k msg type 0 none = tx
  have htx' : C119.Half tx.id ∧ C119.Half tx.type := by subst htx; exact ⟨hid, ht⟩
  have hc : C119.Ok (cleanup now { b with nextId := nx }) := C119.cleanup_ok (b := { b with nextId := nx }) h
  generalize cleanup now { b with nextId := nx } = c at *
  have := C119.sendNext_ok (now := now) (tx := tx) (b := { c with sends := put id tx c.sends })
    (by
      refine ⟨fun e he => ?_, hc.2⟩
      rcases mem_put he with rfl | he
      · exact htx'
      · exact hc.1 e he) htx'
  refine ⟨this.1, ?_⟩
  simp only [sysexOf, List.mem_cons, forall_eq_or_imp]
  refine ⟨?_, this.2⟩
  exact C119.message_lt _ _ (by decide)
    (C119.half_append (C119.half_append (C119.half_append htx'.1 htx'.2) (number_lt _ _)) (pack_lt _))

theorem C119.sendString_ok {now : Nat} {path msg : Str} {k : Int} {type : Bytes} {b : Bridge} (h : C119.Ok b)
    (ht : C119.Half type) : C119.Ok (sendString now path msg k type b).bridge ∧
      ∀ d ∈ sysexOf (sendString now path msg k type b).effs, C119.Half d := by
  unfold sendString
  split
  · exact ⟨h, by simp [sysexOf]⟩
  split
  · exact ⟨h, by simp [sysexOf]⟩
  · exact C119.startSend_ok h ht

theorem C119.request_ok {path : Str} {k : Int} {b : Bridge} (h : C119.Ok b) :
    C119.Ok (request path k b).bridge ∧ ∀ d ∈ sysexOf (request path k b).effs, C119.Half d := by
  unfold request
  split
  · exact ⟨h, by simp [sysexOf]⟩
  split
  · exact ⟨h, by simp [sysexOf]⟩
  · refine ⟨h, ?_⟩
    simp only [sysexOf, List.mem_singleton, forall_eq]
    exact C119.message_lt _ _ (by decide) (C119.half_append (number_lt _ _) (pack_lt _))

theorem C119.sysex_append : ∀ a b : List Eff, sysexOf (a ++ b) = sysexOf a ++ sysexOf b
  | [], b => rfl
  | e :: a, b => by cases e <;> simp [sysexOf, C119.sysex_append a b]

theorem C119.typeFile_half : C119.Half typeFile := by intro b hb; simp [typeFile] at hb; omega
theorem C119.typeError_half : C119.Half typeError := by intro b hb; simp [typeError] at hb; omega

theorem C119.sendFile_ok {getFile : Str → Except Str (Option Str)} {now : Nat} {path : Str} {k : Int} {b : Bridge} (h : C119.Ok b) :
    C119.Ok (sendFile getFile now path k b).bridge ∧ ∀ d ∈ sysexOf (sendFile getFile now path k b).effs, C119.Half d := by
  unfold sendFile
  split
  · exact ⟨h, by simp [sysexOf]⟩
  split
  · exact ⟨h, by simp [sysexOf]⟩
  split
  · exact ⟨h, by simp [sysexOf]⟩
  · exact ⟨h, by simp [sysexOf]⟩
  · exact C119.startSend_ok h C119.typeFile_half

theorem C119.dispatch_ok {getFile : Str → Except Str (Option Str)} {now : Nat} {data : Bytes} {b : Bridge} (h : C119.Ok b)
    (hd : C119.Half data) :
    C119.Ok (dispatch getFile now data b).bridge ∧ ∀ d ∈ sysexOf (dispatch getFile now data b).effs, C119.Half d := by
  have hid : C119.Half ((data.drop 4).take 4) := fun x hx => hd x (List.mem_of_mem_drop (List.mem_of_mem_take hx))
  unfold dispatch
  simp only
  split
  · exact ⟨h, by simp [sysexOf]⟩
  split
  · exact C119.sendFile_ok h
  split
  · refine ⟨⟨(C119.cleanup_ok h).1, fun e he => ?_⟩, by simp [receiveStart, sysexOf]⟩
    rcases mem_put he with rfl | he
    · exact hid
    · exact (C119.cleanup_ok h).2 e he
  split
  · unfold receiveData
    split
    · exact ⟨h, by simp [sysexOf]⟩
    · rename_i tx htx
      have htx := h.2 _ (find_mem htx)
      simp only
      split
      · exact ⟨h, by simp [sysexOf]⟩
      have hack : ∀ n, C119.Half (ackMessage tx.id n) := fun n =>
        C119.message_lt _ _ (by decide) (C119.half_append htx (number_lt _ _))
      have hput : ∀ t : RecvTx, t.id = tx.id → C119.Ok { b with recvs := put ((data.drop 4).take 4) t b.recvs } := by
        intro t ht
        refine ⟨h.1, fun e he => ?_⟩
        rcases mem_put he with rfl | he
        · simpa [ht] using htx
        · exact h.2 e he
      have hdel : ∀ (i : Bytes) (b : Bridge), C119.Ok b → C119.Ok { b with recvs := del i b.recvs } :=
        fun i b h => ⟨h.1, fun e he => h.2 e (mem_del.1 he).1⟩
      split
      · unfold receiveFinish
        split
        · refine ⟨hdel _ _ (hput _ ?_), ?_⟩
          · rfl
          · simpa [sysexOf] using hack _
        split
        · refine ⟨hdel _ _ (hput _ ?_), ?_⟩
          · rfl
          · simpa [sysexOf] using hack _
        · refine ⟨hput _ ?_, ?_⟩
          · rfl
          · simpa [sysexOf] using hack _
      · refine ⟨hput _ ?_, ?_⟩
        · rfl
        · simpa [sysexOf] using hack _
  split
  · unfold receiveAck
    split
    · exact ⟨h, by simp [sysexOf]⟩
    · rename_i tx htx
      have htx := h.1 _ (find_mem htx)
      simp only
      split
      · exact ⟨h, by simp [sysexOf]⟩
      split
      · exact ⟨⟨fun e he => h.1 e (mem_del.1 he).1, h.2⟩, by simp [sysexOf]⟩
      · exact C119.sendNext_ok h htx
  · exact ⟨h, by simp [sysexOf]⟩

theorem C119.sendError_ok {now : Nat} {text : Str} {b : Bridge} (h : C119.Ok b) :
    C119.Ok (sendError now text b).bridge ∧ ∀ d ∈ sysexOf (sendError now text b).effs, C119.Half d := by
  rw [sendError]
  exact C119.sendString_ok h C119.typeError_half

theorem C119.receive_ok {getFile : Str → Except Str (Option Str)} {now : Nat} {man data : Bytes} {b : Bridge} (h : C119.Ok b)
    (hd : C119.Half data) : C119.Ok (receive getFile now man data b).2.bridge ∧
      ∀ d ∈ sysexOf (receive getFile now man data b).2.effs, C119.Half d := by
  unfold receive
  split
  · exact ⟨h, by simp [sysexOf]⟩
  have hr := C119.dispatch_ok (getFile := getFile) (now := now) h hd
  generalize dispatch getFile now data b = r at *
  simp only
  cases r.error with
  | none => exact hr
  | some e =>
    simp only
    split
    · exact hr
    · have he := C119.sendError_ok (now := now) (text := e) hr.1
      generalize sendError now e r.bridge = r' at *
      refine ⟨he.1, ?_⟩
      intro d hd
      simp only [C119.sysex_append, List.mem_append] at hd
      rcases hd with hd | hd
      · exact hr.2 d hd
      · exact he.2 d hd

/-- C119: whatever is done with two bridges (texts of the type of files and errors), all bytes of all messages on the way
between them are half-bytes, so that they are legal in a SysEx message. -/
theorem C119_legal (files : Files) (seed : Bool → Nat) (throws : Bool → Bool) (es : List Event)
    (ht : ∀ s now path text size type, Event.send s now path text size type ∈ es → type = typeFile ∨ type = typeError)
    (s : Bool) : ∀ m ∈ ((Sys.start seed throws).run files es).toSide s, ∀ b ∈ m, b < 128 := by
  suffices H : ∀ (es : List Event) (x : Sys), (∀ s, C119.Ok (x.bridge s)) → (∀ s, ∀ m ∈ x.toSide s, C119.Half m) →
      (∀ s now path text size type, Event.send s now path text size type ∈ es → type = typeFile ∨ type = typeError) →
      ∀ s, ∀ m ∈ (x.run files es).toSide s, C119.Half m from
    H es _ (fun s => ⟨by simp [Sys.start], by simp [Sys.start]⟩) (by simp [Sys.start]) ht s
  intro es
  induction es with
  | nil => intro x _ hm _; exact hm
  | cons e es ih =>
    intro x hx hm ht
    have hdid : ∀ (y : Sys) (s : Bool) (r : Res), (∀ s, C119.Ok (y.bridge s)) → (∀ s, ∀ m ∈ y.toSide s, C119.Half m) →
        C119.Ok r.bridge → (∀ d ∈ sysexOf r.effs, C119.Half d) →
        (∀ t, C119.Ok ((y.did s r).bridge t)) ∧ ∀ t, ∀ m ∈ (y.did s r).toSide t, C119.Half m := by
      intro y s r hy hm hr hs
      constructor
      · intro t
        simp only [Sys.did, upd]
        split
        · exact hr
        · exact hy t
      · intro t m
        simp only [Sys.did, upd]
        split
        · intro h
          rcases List.mem_append.1 h with h | h
          · exact hm _ m h
          · exact hs m h
        · exact hm t m
    have hstep : (∀ t, C119.Ok ((x.step files e).bridge t)) ∧ ∀ t, ∀ m ∈ (x.step files e).toSide t, C119.Half m := by
      cases e with
      | send s now path text size type =>
        have hty : C119.Half type := by
          rcases ht s now path text size type (List.mem_cons_self ..) with rfl | rfl
          · exact C119.typeFile_half
          · exact C119.typeError_half
        have := C119.sendString_ok (now := now) (path := path) (msg := text) (k := size) (hx s) hty
        exact hdid x s _ hx hm this.1 this.2
      | request s path size =>
        have := C119.request_ok (path := path) (k := size) (hx s)
        exact hdid x s _ hx hm this.1 this.2
      | deliver s now =>
        simp only [Sys.step]
        split
        · exact ⟨hx, hm⟩
        · rename_i m rest hmr
          have := C119.receive_ok (getFile := files s) (now := now) (man := [0x00, 0x7c, 0x7d]) (hx s)
            (hm s m (by rw [hmr]; exact List.mem_cons_self ..))
          refine hdid _ s _ hx ?_ this.1 this.2
          intro t m'
          simp only [upd]
          split
          · rename_i hts
            intro h
            exact hm t m' (by rw [hts, hmr]; exact List.mem_cons_of_mem _ h)
          · exact hm t m'
    exact ih _ hstep.1 hstep.2 fun s now path text size type h => ht s now path text size type (List.mem_cons_of_mem _ h)

example : (((Sys.start (fun _ => 5) fun _ => false).run (fun _ _ => .ok none)
    [.send true 0 (lit "a") (lit "hello") 2 typeFile, .request true (lit "b") 7, .deliver false 0, .deliver false 0,
      .deliver false 0]).toSide true).length = 3 := by decide +kernel

/-- C119: a message, wrapped for MIDI, starts and ends as a SysEx message, and the other side passes exactly it to its bridge. -/
theorem C119_wrap (m : Bytes) : (wrap m).head? = some 0xf0 ∧ (wrap m).getLast? = some 0xf7 ∧
    unwrap (wrap m) = some ([0x00, 0x7c, 0x7d], m) := by
  have hl : (wrap m).getLast? = some 0xf7 := by
    rw [wrap]; exact List.getLast?_concat
  have hh : (wrap m).head? = some 0xf0 := rfl
  refine ⟨hh, hl, ?_⟩
  rw [unwrap, hh, hl]
  rw [if_neg (by simp)]
  have : wrap m = ([0xf0, 0x00, 0x7c, 0x7d] ++ m) ++ [0xf7] := rfl
  rw [this]
  simp

/-- C119: other SysEx messages (with another manufacturer id) do not touch the bridge. -/
theorem C119_others (getFile : Str → Except Str (Option Str)) (now : Nat) (man data : Bytes) (b : Bridge)
    (h : man ≠ [0x00, 0x7c, 0x7d]) : receive getFile now man data b = (false, ⟨b, [], none⟩) := by
  rw [receive, if_pos h]

/-! ### C120 -/

/-- Is it something which the bridge tells its application about received data? -/
def C120.told : Eff → Bool
  | .receiveStart .. | .receiveProgress .. | .receiveFinish .. | .receiveAck .. | .onError .. => true
  | _ => false

theorem C120.error_effs (now : Nat) (text : Str) (b : Bridge) :
    (∀ e ∈ (sendError now text b).effs, C120.told e = false) ∧
    (∀ e ∈ (sendError now text b).bridge.recvs, e ∈ b.recvs) ∧
    ∀ e ∈ (sendError now text b).bridge.sends, e ∈ b.sends ∨ e.1 = number2bytes b.nextId 3 := by
  unfold sendError sendString
  split
  · exact ⟨by simp, fun _ h => h, fun _ h => .inl h⟩
  split
  · exact ⟨by simp, fun _ h => h, fun _ h => .inl h⟩
  · refine ⟨?_, ?_, ?_⟩
    · simp [startSend, sendNextChunk, sendChunk, C120.told]
    · intro e he
      simp only [startSend, generateId, sendNextChunk, cleanup] at he
      exact (List.mem_filter.1 he).1
    · intro e he
      simp only [startSend, generateId, sendNextChunk, cleanup] at he
      rcases mem_put he with h | h
      · exact .inr (by rw [h])
      rcases mem_put h with h | h
      · exact .inr (by rw [h])
      · exact .inl ((List.mem_filter.1 h).1)

/-- What "the message is refused" means: nothing is told to the application, nothing is added to the transmissions being
received, and the transmissions being sent do not go on; only an error is sent to the other side (or thrown, on demand). -/
structure C120.Refused (b : Bridge) (r : Res) : Prop where
  quiet : ∀ e ∈ r.effs, C120.told e = false
  recvs : ∀ e ∈ r.bridge.recvs, e ∈ b.recvs
  sends : ∀ e ∈ r.bridge.sends, e ∈ b.sends ∨ e.1 = number2bytes b.nextId 3
  thrown : b.throws = true → r = ⟨b, [], some (lit "Checksum mismatch")⟩
  answer : b.throws = false → ∃ d ∈ sysexOf r.effs, d = Msg.enc (.data (number2bytes b.nextId 3) 0 (lit "Checksum mismatch"))

theorem C120.refused (getFile : Str → Except Str (Option Str)) (now c : Nat) (sum payload : Bytes) (b : Bridge)
    (hs : sum.length = 3) (h : getChecksum payload ≠ sum) :
    C120.Refused b (receive getFile now [0x00, 0x7c, 0x7d] ([c] ++ sum ++ payload) b).2 := by
  have hd := dispatch_parts getFile now c sum payload b hs
  rw [if_pos h] at hd
  unfold receive
  rw [if_neg (by simp)]
  simp only [hd]
  split
  · rename_i ht
    exact ⟨by simp, fun _ h => h, fun _ h => .inl h, fun _ => rfl, fun h' => by simp_all⟩
  · rename_i ht
    have := C120.error_effs now (lit "Checksum mismatch") b
    refine ⟨by simpa using this.1, this.2.1, this.2.2, fun h' => absurd h' ht, fun _ => ?_⟩
    have hc : ¬ ((100 : Int) < 1) := by decide
    have hm : lit "Checksum mismatch" ≠ [] := by decide
    have hk : (lit "Checksum mismatch").take 100 = lit "Checksum mismatch" := by decide
    refine ⟨_, ?_, rfl⟩
    simp only [List.nil_append, sendError, sendString, if_neg hm, if_neg hc, startSend, generateId, sendNextChunk, sendChunk,
      sysexOf, show Int.toNat 100 = 100 from rfl, hk, Msg.enc, List.mem_cons, List.not_mem_nil, or_false, or_true]

/-- C120: a message with one damaged half-byte, or two damaged ones next to each other, after command and checksum is refused. -/
theorem C120_damage_partial (getFile : Str → Except Str (Option Str)) (now command : Nat) (pre mid mid' post : Bytes) (b : Bridge)
    (hl : mid.length = mid'.length) (h2 : mid.length ≤ 2) (hm : ∀ x ∈ mid, x < 128) (hm' : ∀ x ∈ mid', x < 128) (hne : mid ≠ mid') :
    C120.Refused b (receive getFile now [0x00, 0x7c, 0x7d]
      ([command] ++ getChecksum (pre ++ mid ++ post) ++ (pre ++ mid' ++ post)) b).2 := by
  apply C120.refused _ _ _ _ _ _ (checksum_length _)
  intro h
  have := number2_inj (by rw [crc16_eq]; exact fin_lt _) (by rw [crc16_eq]; exact fin_lt _) h
  exact crc_detects pre mid mid' post hl h2 hm hm' hne this.symm

/-- C120: a message with a damaged checksum is refused. -/
theorem C120_checksum_partial (getFile : Str → Except Str (Option Str)) (now command : Nat) (sum payload : Bytes) (b : Bridge)
    (hs : sum.length = 3) (h : sum ≠ getChecksum payload) :
    C120.Refused b (receive getFile now [0x00, 0x7c, 0x7d] ([command] ++ sum ++ payload) b).2 :=
  C120.refused _ _ _ _ _ _ hs (Ne.symm h)

/-- A bridge which is receiving a file of three chunks. -/
def C120.receiving : Bridge :=
  { nextId := 7, throws := true, recvs := [(number2bytes 3 3, { id := number2bytes 3 3, type := typeFile, amountChunks := 3, path := lit "a" })] }

example :
    let payload := number2bytes 3 3 ++ number2bytes 0 3 ++ string2bytes (lit "hello")
    let damaged := number2bytes 3 3 ++ number2bytes 0 3 ++ [53] ++ (string2bytes (lit "hello")).drop 1
    (receive (fun _ => .ok none) 0 [0x00, 0x7c, 0x7d] ([3] ++ getChecksum payload ++ payload) C120.receiving).2.error = none ∧
    payload ≠ damaged ∧
    (receive (fun _ => .ok none) 0 [0x00, 0x7c, 0x7d] ([3] ++ getChecksum payload ++ damaged) C120.receiving).2 =
      ⟨C120.receiving, [], some (lit "Checksum mismatch")⟩ := by decide +kernel

/-- C120, not for all damage: the command is not covered by the checksum. With a single
bit of the command damaged, a chunk of data is taken as the start of a transmission, which replaces the one under way. -/
theorem C120_command_witness :
    let payload := number2bytes 3 3 ++ number2bytes 0 3 ++ string2bytes (lit "hello")
    let r := (receive (fun _ => .ok none) 0 [0x00, 0x7c, 0x7d] ([2] ++ getChecksum payload ++ payload) C120.receiving).2
    r.error = none ∧ ¬ C120.Refused C120.receiving r ∧ r.bridge.recvs ≠ C120.receiving.recvs := by
  refine ⟨by decide +kernel, fun h => ?_, by decide +kernel⟩
  exact absurd h.quiet (by decide +kernel)

/-- C120, not for all damage: three damaged half-bytes may give the same checksum. -/
theorem C120_three_witness :
    let payload := number2bytes 3 3 ++ number2bytes 0 3 ++ [65, 66, 67]
    let damaged := number2bytes 3 3 ++ number2bytes 0 3 ++ [2, 43, 65]
    payload ≠ damaged ∧
    (receive (fun _ => .ok none) 0 [0x00, 0x7c, 0x7d] ([3] ++ getChecksum payload ++ damaged) C120.receiving).2.error = none ∧
    (receive (fun _ => .ok none) 0 [0x00, 0x7c, 0x7d] ([3] ++ getChecksum payload ++ damaged) C120.receiving).2.bridge ≠
      (receive (fun _ => .ok none) 0 [0x00, 0x7c, 0x7d] ([3] ++ getChecksum payload ++ payload) C120.receiving).2.bridge := by
  decide +kernel

end PySwitch.Props
