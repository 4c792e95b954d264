import Verif.Props.BridgeFlow

/-!
C121: whatever happens on the way, a file which is received is a file which was sent.
-/

namespace PySwitch.Props
open PySwitch.Bridge PySwitch.Spec.Bridge PySwitch.Lemmas.Bridge

namespace C121

/-- A transmission which was started. -/
structure Sent where
  id : Bytes
  type : Bytes
  path : Str
  text : Str
  size : Nat

def Sent.n (S : Sent) : Nat := pieces S.text S.size

def Sent.startMsg (S : Sent) : Bytes := message 0x02 (S.id ++ S.type ++ number2bytes S.n 3 ++ string2bytes S.path)
def Sent.dataMsg (S : Sent) (i : Nat) : Bytes :=
  message 0x03 (S.id ++ number2bytes i 3 ++ string2bytes (piece S.text S.size i))

/-- Of these chunks, the application has been told. -/
def Acked (told : List Eff) (id : Bytes) (i : Nat) : Prop := ∃ p n, Eff.receiveProgress p id i n ∈ told

/-- Messages which a bridge sends, if it has asked for the files `R` and has received the chunks `A`. -/
inductive Genuine (R : Str → Nat → Prop) (A : Bytes → Nat → Prop) (log : List Sent) : Bytes → Prop
  | start (S : Sent) : S ∈ log → Genuine R A log S.startMsg
  | data (S : Sent) (i : Nat) : S ∈ log → (S.type = typeFile → i < S.n) → Genuine R A log (S.dataMsg i)
  | ack (id : Bytes) (i : Nat) : id.length = 4 → i < 16777216 → A id i → Genuine R A log (ackMessage id i)
  | request (path : Str) (size : Nat) : Sendable path → R path size → Genuine R A log (requestMessage path size)

theorem Genuine.mono {R : Str → Nat → Prop} {A A' : Bytes → Nat → Prop} {log log' : List Sent} (hA : ∀ id i, A id i → A' id i) (h : ∀ S ∈ log, S ∈ log')
    {m : Bytes} (hm : Genuine R A log m) : Genuine R A' log' m := by
  cases hm with
  | start S hS => exact .start S (h S hS)
  | data S i hS hi => exact .data S i (h S hS) hi
  | ack id i h1 h2 h3 => exact .ack id i h1 h2 (hA _ _ h3)
  | request path size hp hR => exact .request path size hp hR

/-- `O` are the files which may be sent. -/
structure SentOk (O : Str → Str → Nat → Prop) (S : Sent) : Prop where
  id : S.id.length = 4
  type : S.type = typeFile ∨ S.type = typeError
  file : S.type = typeFile → Sendable S.path ∧ 1 ≤ S.size ∧ Good S.text ∧ O S.path S.text S.size

/-- The sending half of a bridge; `A` are the chunks which the other side has received. -/
structure SendInv (O : Str → Str → Nat → Prop) (A : Bytes → Nat → Prop) (seed : Nat) (log : List Sent) (b : Bridge) : Prop where
  ok : ∀ S ∈ log, SentOk O S
  ids : log.map Sent.id = (List.range log.length).map fun i => number2bytes ((seed + i) % 16777216) 3
  next : b.nextId = (seed + log.length) % 16777216
  sends : ∀ e ∈ b.sends, ∃ S ∈ log, e.1 = S.id ∧ ∃ (j : Nat) (t : Option Nat), e.2 = ⟨S.id, S.path, S.n, S.size, S.text.drop (j * S.size), S.type, j, t⟩ ∧
    (S.type = typeFile → j ≤ S.n) ∧ ∀ i, i + 1 < j → A S.id i

theorem SendInv.mono {O : Str → Str → Nat → Prop} {A A' : Bytes → Nat → Prop} {seed : Nat} {log : List Sent} {b : Bridge} (hA : ∀ id i, A id i → A' id i)
    (h : SendInv O A seed log b) : SendInv O A' seed log b := by
  refine ⟨h.ok, h.ids, h.next, fun e he => ?_⟩
  obtain ⟨S, hS, h0, j, t, h1, h2, h3⟩ := h.sends e he
  exact ⟨S, hS, h0, j, t, h1, h2, fun i hi => hA _ _ (h3 i hi)⟩

/-- The receiving half. -/
def RecvInv (log : List Sent) (b : Bridge) : Prop :=
  ∀ e ∈ b.recvs, ∃ S ∈ log, e.1 = S.id ∧ e.2.id = S.id ∧ e.2.type = S.type ∧
    (S.type = typeFile → e.2.amountChunks = S.n ∧ e.2.path = S.path ∧
      ∃ c : Nat, c ≤ S.n ∧ e.2.lastChunk = (c : Int) - 1 ∧ e.2.buffer = S.text.take (c * S.size))

theorem RecvInv.mono {log log' : List Sent} (h : ∀ S ∈ log, S ∈ log') {b : Bridge} (hb : RecvInv log b) : RecvInv log' b := by
  intro e he
  obtain ⟨S, hS, r⟩ := hb e he
  exact ⟨S, h S hS, r⟩

theorem RecvInv.cleanup {log : List Sent} {now : Nat} {b : Bridge} (h : RecvInv log b) : RecvInv log (cleanup now b) :=
  fun e he => h e (List.mem_filter.1 he).1

/-- Nothing among the effects is a file which was received. -/
def NoFile (effs : List Eff) : Prop := ∀ path data, (some path, data) ∉ received (callbacksOf effs)

theorem callbacks_append : ∀ a b : List Eff, callbacksOf (a ++ b) = callbacksOf a ++ callbacksOf b
  | [], b => rfl
  | e :: a, b => by cases e <;> simp [callbacksOf, callbacks_append a b]

theorem sysex_append : ∀ a b : List Eff, sysexOf (a ++ b) = sysexOf a ++ sysexOf b
  | [], b => rfl
  | e :: a, b => by cases e <;> simp [sysexOf, sysex_append a b]

theorem Acked.append_left {a b : List Eff} {id : Bytes} {i : Nat} (h : Acked (callbacksOf a) id i) : Acked (callbacksOf (a ++ b)) id i := by
  obtain ⟨p, n, h⟩ := h
  exact ⟨p, n, by rw [callbacks_append]; exact List.mem_append_left _ h⟩

theorem Acked.append_right {a b : List Eff} {id : Bytes} {i : Nat} (h : Acked (callbacksOf b) id i) : Acked (callbacksOf (a ++ b)) id i := by
  obtain ⟨p, n, h⟩ := h
  exact ⟨p, n, by rw [callbacks_append]; exact List.mem_append_right _ h⟩

/-- The chunk announced belongs to a transmission, and the other side has received all chunks before. -/
def Announced (A : Bytes → Nat → Prop) (log : List Sent) (path : Str) (id : Bytes) (c n : Nat) (f : Bool) : Prop :=
  (∃ S ∈ log, path = S.path ∧ id = S.id ∧ n = S.n ∧ f = (S.type == typeFile)) ∧ ∀ i < c, A id i

theorem Announced.mono {A A' : Bytes → Nat → Prop} {log log' : List Sent} {path : Str} {id : Bytes} {c n : Nat} {f : Bool}
    (hA : ∀ id i, A id i → A' id i) (hl : ∀ S ∈ log, S ∈ log') (h : Announced A log path id c n f) : Announced A' log' path id c n f := by
  obtain ⟨⟨S, hS, r⟩, h⟩ := h
  exact ⟨⟨S, hl S hS, r⟩, fun i hi => hA _ _ (h i hi)⟩

/-- What a call does: `log` is what the own side has sent, `other` what the other side has sent. -/
structure Does (O : Str → Str → Nat → Prop) (P : Str → Str → Prop) (R : Str → Nat → Prop) (A : Bytes → Nat → Prop) (seed : Nat) (log other : List Sent) (r : Res) : Prop where
  send : ∃ log', (∀ S ∈ log, S ∈ log') ∧ log'.length ≤ log.length + 1 ∧ SendInv O A seed log' r.bridge ∧ (∀ m ∈ sysexOf r.effs, Genuine R (Acked (callbacksOf r.effs)) log' m) ∧
    (∀ path id c n f, Eff.sendProgress path id c n f ∈ callbacksOf r.effs → Announced A log' path id c n f) ∧ (r.error ≠ none → log' = log)
  recv : RecvInv other r.bridge
  told : ∀ path data, (some path, data) ∈ received (callbacksOf r.effs) → P path data

theorem Does.same {O : Str → Str → Nat → Prop} {P : Str → Str → Prop} {R : Str → Nat → Prop} {A : Bytes → Nat → Prop} {seed : Nat} {log other : List Sent} {b' : Bridge} {effs : List Eff} {err : Option Str}
    (hs : SendInv O A seed log b') (hr : RecvInv other b') (hm : ∀ m ∈ sysexOf effs, Genuine R (Acked (callbacksOf effs)) log m) (ht : NoFile effs)
    (hp : ∀ path id c n f, Eff.sendProgress path id c n f ∉ callbacksOf effs := by simp [callbacksOf])
    : Does O P R A seed log other ⟨b', effs, err⟩ :=
  ⟨⟨log, fun _ h => h, by omega, hs, hm, fun path id c n f h => absurd h (hp path id c n f), fun _ => rfl⟩, hr,
    fun path data h => absurd h (ht path data)⟩

theorem sendInv_sub {O : Str → Str → Nat → Prop} {A : Bytes → Nat → Prop} {seed : Nat} {log : List Sent} {b b' : Bridge} (h : SendInv O A seed log b)
    (hn : b'.nextId = b.nextId) (hs : ∀ e ∈ b'.sends, e ∈ b.sends) : SendInv O A seed log b' :=
  ⟨h.ok, h.ids, by rw [hn]; exact h.next, fun e he => h.sends e (hs e he)⟩

theorem pieces_le {text : Str} {k : Nat} (hk : 1 ≤ k) : pieces text k ≤ text.length := by
  rw [← pieces_eq _ _ hk, Nat.div_le_iff_le_mul (by omega)]
  have : text.length * 1 ≤ text.length * k := Nat.mul_le_mul_left _ hk
  omega

theorem next_arith {a b c M nx : Nat} (hM : 0 < M) (h : a = (b + c) % M) (hnx : nx = (a + 1 - if a + 1 ≥ M then a + 1 else 0)) :
    nx = (b + (c + 1)) % M := by
  have h1 : a < M := by rw [h]; exact Nat.mod_lt _ hM
  have h2 : (b + (c + 1)) % M = (a + 1) % M := by rw [h, ← Nat.add_assoc, Nat.mod_add_mod]
  rw [h2, hnx]
  split
  · rw [show a + 1 = M by omega]; simp
  · rw [Nat.mod_eq_of_lt (by omega)]; omega

theorem startSend_eq (now : Nat) (path text : Str) (k : Nat) (type : Bytes) (b : Bridge) (hk : 1 ≤ k)
    (S : Sent) (hS : S = ⟨number2bytes b.nextId 3, type, path, text, k⟩) : ∃ nx, nx = (b.nextId + 1 - if b.nextId + 1 ≥ 16777216 then b.nextId + 1 else 0) ∧ startSend now path text k type b =
      ⟨{ b with nextId := nx, sends := put S.id ⟨S.id, S.path, S.n, S.size, S.text.drop (1 * S.size), S.type, 1, some now⟩ (cleanup now b).sends, recvs := (cleanup now b).recvs },
        [.sysex S.startMsg, .sendProgress S.path S.id 0 S.n (S.type == typeFile), .sysex (S.dataMsg 0)], none⟩ := by
  have hnx : (if b.nextId + 1 ≥ 16777216 then 0 else b.nextId + 1) = (b.nextId + 1 - if b.nextId + 1 ≥ 16777216 then b.nextId + 1 else 0) := by
    split <;> omega
  simp only [startSend, generateId]
  rw [hnx]
  generalize (b.nextId + 1 - if b.nextId + 1 ≥ 16777216 then b.nextId + 1 else 0) = nx
  rw [pieces_eq _ _ hk]
  subst hS
  refine ⟨nx, rfl, ?_⟩
  simp [sendNextChunk, sendChunk, put_put, Sent.startMsg, Sent.dataMsg, startMessage, Sent.n, piece, cleanup]

theorem startSend_does {O : Str → Str → Nat → Prop} {P : Str → Str → Prop} {R : Str → Nat → Prop} {A : Bytes → Nat → Prop} {seed : Nat} {log other : List Sent} {b : Bridge} {now : Nat} {path text : Str} {k : Nat} {type : Bytes}
    (hs : SendInv O A seed log b) (hr : RecvInv other b) (ht : type = typeFile ∨ type = typeError) (hk : 1 ≤ k)
    (hf : type = typeFile → Sendable path ∧ Good text ∧ O path text k) :
    Does O P R A seed log other (startSend now path text k type b) := by
  obtain ⟨S, hS⟩ : ∃ S : Sent, S = ⟨number2bytes b.nextId 3, type, path, text, k⟩ := ⟨_, rfl⟩
  obtain ⟨nx, hnx, heq⟩ := startSend_eq now path text k type b hk S hS
  rw [heq]
  clear heq
  have hid : S.id = number2bytes ((seed + log.length) % 16777216) 3 := by rw [← hs.next, hS]
  have hty : S.type = type := by rw [hS]
  have hpos : S.type = typeFile → 0 < S.n := fun h => by
    rw [hty] at h
    have e : S.n = pieces text k := by rw [Sent.n, hS]
    rw [e]
    exact pieces_pos hk (hf h).2.1.1
  have hSok : SentOk O S := by
    refine ⟨by rw [hid]; exact number3_length _, by rw [hty]; exact ht, fun h => ?_⟩
    rw [hty] at h
    have e1 : S.path = path := by rw [hS]
    have e2 : S.size = k := by rw [hS]
    have e3 : S.text = text := by rw [hS]
    rw [e1, e2, e3]
    exact ⟨(hf h).1, hk, (hf h).2.1, (hf h).2.2⟩
  clear hS
  have hnx : nx = (seed + (log.length + 1)) % 16777216 := next_arith (by decide) hs.next hnx
  have hlen : (log ++ [S]).length = log.length + 1 := by simp
  have hlen2 : (log ++ [S]).length ≤ log.length + 1 := Nat.le_of_eq hlen
  have hids : (log ++ [S]).map Sent.id = (List.range (log ++ [S]).length).map fun i => number2bytes ((seed + i) % 16777216) 3 := by
    rw [hlen, List.range_succ, List.map_append, List.map_append, hs.ids, List.map_singleton, List.map_singleton, hid]
  rw [← hlen] at hnx
  refine ⟨⟨log ++ [S], fun S h => List.mem_append_left _ h, hlen2, ⟨?_, hids, hnx, ?_⟩, ?_, ?_, fun h => absurd rfl h⟩, ?_, ?_⟩
  · intro T hT
    rcases List.mem_append.1 hT with h | h
    · exact hs.ok T h
    · rw [List.mem_singleton.1 h]; exact hSok
  · intro e he
    rcases mem_put he with rfl | he
    · exact ⟨S, by simp, rfl, 1, some now, rfl, hpos, fun i hi => absurd hi (by omega)⟩
    · obtain ⟨T, hT, r⟩ := hs.sends e (List.mem_filter.1 he).1
      exact ⟨T, List.mem_append_left _ hT, r⟩
  · intro m hm
    simp only [sysexOf] at hm
    rcases List.mem_cons.1 hm with rfl | hm
    · exact .start S (by simp)
    · rw [List.mem_singleton.1 hm]
      exact .data S 0 (by simp) hpos
  · intro path id c n f h
    simp only [callbacksOf, List.mem_singleton, Eff.sendProgress.injEq] at h
    obtain ⟨h1, h2, rfl, h3, h4⟩ := h
    exact ⟨⟨S, by simp, h1, h2, h3, h4⟩, fun i hi => absurd hi (Nat.not_lt_zero _)⟩
  · exact fun e he => hr e (List.mem_filter.1 he).1
  · intro q d h
    simp [callbacksOf, received] at h

theorem sendError_does {O : Str → Str → Nat → Prop} {P : Str → Str → Prop} {R : Str → Nat → Prop} {A : Bytes → Nat → Prop} {seed : Nat} {log other : List Sent} {b : Bridge} {now : Nat} {text : Str}
    (hs : SendInv O A seed log b) (hr : RecvInv other b) : Does O P R A seed log other (sendError now text b) := by
  rw [sendError, sendString]
  split
  · exact .same hs hr (by simp [sysexOf]) (by simp [NoFile, callbacksOf, received])
  rw [if_neg (by decide)]
  exact startSend_does hs hr (.inr rfl) (by decide) (fun h => absurd h (by decide))

theorem unique {O : Str → Str → Nat → Prop} {A : Bytes → Nat → Prop} {seed : Nat} {log : List Sent} {b : Bridge} (h : SendInv O A seed log b) (hl : log.length ≤ 16777216)
    {S T : Sent} (hS : S ∈ log) (hT : T ∈ log) (he : S.id = T.id) : S = T := by
  obtain ⟨i, hi, rfl⟩ := List.getElem_of_mem hS
  obtain ⟨j, hj, rfl⟩ := List.getElem_of_mem hT
  have key : ∀ (i : Nat) (hi : i < log.length), log[i].id = number2bytes ((seed + i) % 16777216) 3 := by
    intro i hi
    have := congrArg (fun l => l[i]?) h.ids
    simpa [hi] using this
  rw [key i hi, key j hj] at he
  have := number3_inj (by omega) (by omega) he
  have : i = j := by omega
  subst this
  rfl

theorem number_mod (i : Nat) : bytes2number (number2bytes i 3) = ((i % 16777216 : Nat) : Int) := by
  have : number2bytes i 3 = number2bytes (i % 16777216) 3 := by
    rw [number3, number3]
    congr 1
    simp only [List.cons.injEq, and_true]
    omega
  rw [this]
  exact number_back _ (Nat.mod_lt _ (by decide))

theorem number_some (i : Nat) : ∃ c : Nat, c < 16777216 ∧ bytes2number (number2bytes i 3) = c :=
  ⟨i % 16777216, Nat.mod_lt _ (by decide), number_mod i⟩

/-- A message of the other side is received. -/
theorem dispatch_does {files : Str → Except Str (Option Str)} {O O' : Str → Str → Nat → Prop} {P : Str → Str → Prop} {R R' : Str → Nat → Prop} {A A' : Bytes → Nat → Prop} {seed seed' : Nat} {log other : List Sent} {b b' : Bridge} {now : Nat} {m : Bytes}
    (hs : SendInv O A seed log b) (hr : RecvInv other b) (ho : SendInv O' A' seed' other b') (hol : other.length ≤ 16777216)
    (hfiles : ∀ path text size, R' path size → files path = .ok (some text) → Good text ∧ O path text (size % 16777216)) (hP : ∀ path data size, O' path data size → P path data)
    (hm : Genuine R' A other m) : Does O P R A seed log other (dispatch files now m b) := by
  cases hm with
  | request path size hp hR =>
    rw [requestMessage, dispatch_message, if_pos rfl, receiveRequest, take4 (number3_length _), drop4 (number3_length _), text_back hp]
    rw [number_mod]
    have hk : ((size % 16777216 : Nat) : Int).toNat = size % 16777216 := Int.toNat_natCast _
    rw [sendFile]
    split
    · exact .same hs hr (by simp [sysexOf]) (by simp [NoFile, callbacksOf, received])
    split
    · exact .same hs hr (by simp [sysexOf]) (by simp [NoFile, callbacksOf, received])
    split
    · exact .same hs hr (by simp [sysexOf]) (by simp [NoFile, callbacksOf, received])
    · exact .same hs hr (by simp [sysexOf]) (by simp [NoFile, callbacksOf, received])
    · rename_i text he
      exact startSend_does hs hr (.inl rfl) (by omega) fun _ => ⟨hp, (hfiles _ _ _ hR he).1, by rw [hk]; exact (hfiles _ _ _ hR he).2⟩
  | ack id i hid hi hA =>
    rw [ackMessage, dispatch_message, if_neg (by decide), if_neg (by decide), if_neg (by decide), if_pos rfl, take4 hid, drop4 hid, receiveAck, number_back i hi]
    split
    · exact .same hs hr (by simp [sysexOf]) (by simp [NoFile, callbacksOf, received])
    rename_i tx htx
    obtain ⟨S, hS, h0, j, t, he, hj, hall⟩ := hs.sends _ (find_mem htx)
    simp only at he h0
    subst he
    simp only
    split
    · exact .same hs hr (by simp [sysexOf]) (by simp [NoFile, callbacksOf, received])
    split
    · exact .same (sendInv_sub hs rfl fun e he => (mem_del.1 he).1) hr (by simp [sysexOf]) (by simp [NoFile, callbacksOf, received])
    · rename_i hij hjn
      have hij : j = i + 1 := by simp only [Decidable.not_not] at hij; omega
      have hall' : ∀ k, k < j → A S.id k := by
        intro k hk
        by_cases e : k = i
        · rw [e, ← h0]; exact hA
        · exact hall k (by omega)
      refine ⟨⟨log, fun _ h => h, by omega, ⟨hs.ok, hs.ids, hs.next, ?_⟩, ?_, ?_, fun _ => rfl⟩, hr, ?_⟩
      · intro e he
        rcases mem_put he with rfl | he
        · refine ⟨S, hS, rfl, j + 1, some now, ?_, fun h => ?_, fun k hk => hall' k (by omega)⟩
          · simp [Nat.add_mul]
          · have := hj h; omega
        · exact hs.sends e he
      · intro m hm
        simp only [sendNextChunk, sendChunk, sysexOf, List.mem_singleton] at hm
        subst hm
        exact .data S j hS fun h => by have := hj h; omega
      · intro p id' c n f h
        simp only [sendNextChunk, sendChunk, callbacksOf, List.mem_singleton, Eff.sendProgress.injEq] at h
        obtain ⟨h1, rfl, rfl, h2, h3⟩ := h
        exact ⟨⟨S, hS, h1, rfl, h2, h3⟩, hall'⟩
      · intro p d h
        simp [sendNextChunk, sendChunk, callbacksOf, received] at h
  | start S hS =>
    have hok := ho.ok S hS
    rw [Sent.startMsg, dispatch_message, if_neg (by decide), if_pos rfl]
    rw [show S.id ++ S.type ++ number2bytes S.n 3 ++ string2bytes S.path = S.id ++ (S.type ++ number2bytes S.n 3 ++ string2bytes S.path) by
      simp only [List.append_assoc], take4 hok.id, drop4 hok.id]
    obtain ⟨ty, hty⟩ : ∃ ty, S.type = [ty] := by rcases hok.type with h | h <;> exact ⟨_, h⟩
    obtain ⟨x, y, z, w, e4⟩ := list4 (number3_length S.n)
    refine .same (sendInv_sub hs (by rfl) fun e he => ?_) ?_ (by simp [sysexOf])
      (by simp [NoFile, callbacksOf, received])
    · exact (List.mem_filter.1 he).1
    · intro e he
      rcases mem_put he with rfl | he
      · refine ⟨S, hS, rfl, rfl, ?_, fun h => ?_⟩
        · rw [hty]; rfl
        · obtain ⟨hp, hk, hg, -⟩ := hok.file h
          have hn : S.n < 16777216 := Nat.lt_of_le_of_lt (pieces_le hk) hg.2.1
          have hnb := number_back S.n hn
          rw [e4] at hnb
          refine ⟨?_, ?_, 0, Nat.zero_le _, rfl, by simp⟩
          · simp only [hty, e4]; exact hnb
          · simp only [hty, e4]; exact text_back hp
      · exact hr.cleanup e he
  | data S i hS hi =>
    have hok := ho.ok S hS
    by_cases hfile : S.type = typeFile
    · obtain ⟨hp, hk, hg, hO⟩ := hok.file hfile
      have hn : S.n < 16777216 := Nat.lt_of_le_of_lt (pieces_le hk) hg.2.1
      have hi := hi hfile
      have hd := dispatch_data files now S.id i (piece S.text S.size i) b hok.id (by omega)
      rw [show S.dataMsg i = Msg.enc (.data S.id i (piece S.text S.size i)) from rfl, hd]
      split
      · exact .same hs hr (by simp [sysexOf]) (by simp [NoFile, callbacksOf, received])
      rename_i tx htx
      obtain ⟨T, hT, h1, h2, h3, h4⟩ := hr _ (find_mem htx)
      have hTS : T = S := unique ho hol hT hS h1.symm
      subst hTS
      obtain ⟨h5, h6, c, hc, h7, h8⟩ := h4 hfile
      simp only at h2 h3 h5 h6 h7 h8
      rcases tx with ⟨a1, a2, a3, a4, a5, a6, a7⟩
      simp only at h2 h3 h5 h6 h7 h8
      subst h2 h3 h5 h6 h7 h8
      simp only
      split
      · exact .same hs hr (by simp [sysexOf]) (by simp [NoFile, callbacksOf, received])
      rename_i hci
      have hci : c = i := by simp only [Decidable.not_not] at hci; omega
      subst hci
      rw [text_back (hg.2.2 T.size c), take_piece]
      split
      · rename_i hlast
        rw [finish_file (by exact hfile)]
        refine ⟨⟨log, fun _ h => h, by omega, sendInv_sub hs rfl fun _ h => h, ?_, by simp [callbacksOf], fun _ => rfl⟩, ?_, ?_⟩
        · intro m hm
          simp only [sysexOf, List.cons_append, List.nil_append, List.mem_singleton] at hm
          rw [hm]; exact .ack _ _ hok.id (by omega) ⟨T.path, T.n, by simp [callbacksOf]⟩
        · intro e he
          obtain ⟨he, hne⟩ := mem_del.1 he
          rcases mem_put he with rfl | he
          · exact absurd rfl hne
          · exact hr e he
        · intro p d h
          simp only [List.cons_append, List.nil_append, callbacksOf, received, List.mem_singleton, Prod.mk.injEq, Option.some.injEq] at h
          obtain ⟨rfl, rfl⟩ := h
          have : (c + 1) = pieces T.text T.size := by simp only [Sent.n] at hlast; omega
          rw [this, text_whole hk]
          exact hP _ _ _ hO
      · refine .same (sendInv_sub hs rfl fun _ h => h) ?_ ?_ (by simp [NoFile, callbacksOf, received])
        · intro e he
          rcases mem_put he with rfl | he
          · refine ⟨T, hT, rfl, rfl, rfl, fun _ => ⟨rfl, rfl, c + 1, by omega, by simp only; omega, rfl⟩⟩
          · exact hr e he
        · intro m hm
          simp only [sysexOf, List.mem_singleton] at hm
          rw [hm]; exact .ack _ _ hok.id (by omega) ⟨T.path, T.n, by simp [callbacksOf]⟩
    · have hty : S.type = typeError := hok.type.resolve_left hfile
      rw [Sent.dataMsg, dispatch_message, if_neg (by decide), if_neg (by decide), if_pos rfl, List.append_assoc, take4 hok.id, drop4 hok.id]
      rw [receiveData, take4 (number3_length _)]
      obtain ⟨c, hc, hci⟩ := number_some i
      rw [hci]
      split
      · exact .same hs hr (by simp [sysexOf]) (by simp [NoFile, callbacksOf, received])
      rename_i tx htx
      obtain ⟨T, hT, h1, h2, h3, h4⟩ := hr _ (find_mem htx)
      have hTS : T = S := unique ho hol hT hS h1.symm
      subst hTS
      simp only
      split
      · exact .same hs hr (by simp [sysexOf]) (by simp [NoFile, callbacksOf, received])
      have hput : ∀ t : RecvTx, t.id = tx.id → t.type = tx.type → ∀ e ∈ put T.id t b.recvs, ∃ S ∈ other, e.1 = S.id ∧ e.2.id = S.id ∧ e.2.type = S.type ∧
          (S.type = typeFile → e.2.amountChunks = S.n ∧ e.2.path = S.path ∧
            ∃ c : Nat, c ≤ S.n ∧ e.2.lastChunk = (c : Int) - 1 ∧ e.2.buffer = S.text.take (c * S.size)) := by
        intro t e1 e2 e he
        rcases mem_put he with rfl | he
        · exact ⟨T, hT, rfl, e1.trans h2, e2.trans h3, fun h => absurd h hfile⟩
        · exact hr e he
      split
      · rw [finish_error (by simp only; rw [show tx.type = T.type from h3, hty]; rfl)]
        refine .same (sendInv_sub hs rfl fun _ h => h) ?_ ?_ ?_
        · intro e he
          exact hput _ (by rfl) (by rfl) e (mem_del.1 he).1
        · intro m hm
          simp only [sysexOf, List.cons_append, List.nil_append, List.mem_singleton] at hm
          rw [hm]; exact .ack _ _ (by rw [show tx.id = T.id from h2]; exact hok.id) (by simpa using hc) ⟨tx.path, tx.amountChunks, by simp [callbacksOf]⟩
        · intro p d h
          simp [callbacksOf, received] at h
      · refine .same (sendInv_sub hs rfl fun _ h => h) ?_ ?_ ?_
        · exact hput _ rfl rfl
        · intro m hm
          simp only [sysexOf, List.mem_singleton] at hm
          rw [hm]; exact .ack _ _ (by rw [show tx.id = T.id from h2]; exact hok.id) (by simpa using hc) ⟨tx.path, tx.amountChunks, by simp [callbacksOf]⟩
        · intro p d h
          simp [callbacksOf, received] at h

theorem received_app : ∀ a b : List Eff, received (a ++ b) = received a ++ received b := fun a b => received_append a b

/-- Failures are sent to the other side. -/
theorem receive_does {files : Str → Except Str (Option Str)} {O : Str → Str → Nat → Prop} {P : Str → Str → Prop} {R : Str → Nat → Prop} {A : Bytes → Nat → Prop} {seed : Nat} {log other : List Sent} {b : Bridge} {now : Nat} {m : Bytes}
    (h : Does O P R A seed log other (dispatch files now m b)) : Does O P R A seed log other (receive files now [0x00, 0x7c, 0x7d] m b).2 := by
  rw [receive, if_neg (by simp)]
  generalize dispatch files now m b = r at h
  rcases r with ⟨b1, effs, _ | e⟩
  · exact h
  · simp only
    split
    · exact h
    obtain ⟨⟨log1, -, -, hs1, hm1, hp1, he1⟩, hr1, ht1⟩ := h
    have := he1 (by simp)
    subst this
    obtain ⟨⟨log2, hsub, hlen, hs2, hm2, hp2, he2⟩, hr2, ht2⟩ := sendError_does (P := P) (R := R) (now := now) (text := e) hs1 hr1
    refine ⟨⟨log2, hsub, hlen, hs2, ?_, ?_, he2⟩, hr2, ?_⟩
    · intro m hm
      rw [sysex_append] at hm
      rcases List.mem_append.1 hm with h | h
      · exact (hm1 m h).mono (fun id i => Acked.append_left) hsub
      · exact (hm2 m h).mono (fun id i => Acked.append_right) fun _ h => h
    · intro p id c n f h
      rw [callbacks_append] at h
      rcases List.mem_append.1 h with h | h
      · exact (hp1 p id c n f h).mono (fun _ _ h => h) hsub
      · exact hp2 p id c n f h
    · intro p d h
      rw [callbacks_append, received_app] at h
      rcases List.mem_append.1 h with h | h
      · exact ht1 p d h
      · exact ht2 p d h

/-- The files which side `s` may send, with the size of the chunks. -/
def Origin (files : Files) (es : List WildEvent) (s : Bool) (path text : Str) (size : Nat) : Prop :=
  (∃ now, WildEvent.send s now path text size typeFile ∈ es) ∨
    (files s path = .ok (some text) ∧ ∃ k, size = k % 16777216 ∧ WildEvent.request (!s) path k ∈ es)

/-- The files which side `s` has asked for. -/
def Asked (es : List WildEvent) (s : Bool) (path : Str) (size : Nat) : Prop := WildEvent.request s path size ∈ es

structure Inv (files : Files) (all : List WildEvent) (seed : Bool → Nat) (n : Nat) (x : Sys) (log : Bool → List Sent) : Prop where
  len : ∀ s, (log s).length ≤ n
  send : ∀ s, SendInv (Origin files all s) (Acked (x.told (!s))) (seed s) (log s) (x.bridge s)
  recv : ∀ s, RecvInv (log (!s)) (x.bridge s)
  msgs : ∀ s, ∀ m ∈ x.toSide s, Genuine (Asked all (!s)) (Acked (x.told (!s))) (log (!s)) m
  told : ∀ s path data, (some path, data) ∈ received (x.told s) → ∃ size, Origin files all (!s) path data size
  prog : ∀ s path id c n f, Eff.sendProgress path id c n f ∈ x.told s → Announced (Acked (x.told (!s))) (log s) path id c n f

theorem Inv.did {files : Files} {all : List WildEvent} {seed : Bool → Nat} {n : Nat} {x : Sys} {log : Bool → List Sent} (h : Inv files all seed n x log)
    {s : Bool} {r : Res} (hr : Does (Origin files all s) (fun path data => ∃ size, Origin files all (!s) path data size) (Asked all s) (Acked (x.told (!s))) (seed s) (log s) (log (!s)) r) :
    ∃ log', Inv files all seed (n + 1) (x.did s r) log' := by
  obtain ⟨⟨log1, hsub, hlen, hs1, hm1, hp1, -⟩, hr1, ht1⟩ := hr
  have hns : (!s) ≠ s := by cases s <;> simp
  have hsn : s ≠ !s := by cases s <;> simp
  have hcase : ∀ t : Bool, t = s ∨ t = !s := by intro t; cases t <;> cases s <;> simp
  have b1 : (x.did s r).bridge s = r.bridge := by simp [Sys.did, upd]
  have b2 : (x.did s r).bridge (!s) = x.bridge (!s) := by simp [Sys.did, upd]
  have t1 : (x.did s r).told s = x.told s ++ callbacksOf r.effs := by simp [Sys.did, upd]
  have t2 : (x.did s r).told (!s) = x.told (!s) := by simp [Sys.did, upd]
  have m1 : (x.did s r).toSide s = x.toSide s := by simp [Sys.did, upd]
  have m2 : (x.did s r).toSide (!s) = x.toSide (!s) ++ sysexOf r.effs := by simp [Sys.did, upd]
  have l1 : upd log s log1 s = log1 := by simp [upd]
  have l2 : upd log s log1 (!s) = log (!s) := by simp [upd]
  have hA : ∀ id i, Acked (x.told s) id i → Acked (x.told s ++ callbacksOf r.effs) id i := by
    rintro id i ⟨p, n, h⟩; exact ⟨p, n, List.mem_append_left _ h⟩
  have hA' : ∀ id i, Acked (callbacksOf r.effs) id i → Acked (x.told s ++ callbacksOf r.effs) id i := by
    rintro id i ⟨p, n, h⟩; exact ⟨p, n, List.mem_append_right _ h⟩
  refine ⟨upd log s log1, ?_, ?_, ?_, ?_, ?_, ?_⟩
  · intro t
    have := h.len t
    have := h.len s
    rcases hcase t with rfl | rfl
    · rw [l1]; omega
    · rw [l2]; omega
  · intro t
    rcases hcase t with rfl | rfl
    · rw [l1, b1, t2]; exact hs1
    · have := h.send (!s)
      rw [Bool.not_not] at this
      rw [l2, b2, Bool.not_not, t1]; exact this.mono hA
  · intro t
    rcases hcase t with rfl | rfl
    · rw [l2, b1]; exact hr1
    · have := h.recv (!s)
      rw [Bool.not_not] at this
      rw [b2, Bool.not_not, l1]; exact this.mono hsub
  · intro t m hm
    rcases hcase t with rfl | rfl
    · rw [m1] at hm
      rw [l2, t2]; exact h.msgs _ m hm
    · rw [m2] at hm
      rw [Bool.not_not, l1, t1]
      rcases List.mem_append.1 hm with hm | hm
      · have := h.msgs _ m hm
        rw [Bool.not_not] at this
        exact this.mono hA hsub
      · exact (hm1 m hm).mono hA' fun _ h => h
  · intro t p d hd
    rcases hcase t with rfl | rfl
    · rw [t1, received_app] at hd
      rcases List.mem_append.1 hd with hd | hd
      · exact h.told _ p d hd
      · exact ht1 p d hd
    · rw [t2] at hd
      exact h.told _ p d hd
  · intro t p id c n f hd
    rcases hcase t with rfl | rfl
    · rw [t2, l1]
      rw [t1] at hd
      rcases List.mem_append.1 hd with hd | hd
      · exact (h.prog _ p id c n f hd).mono (fun _ _ h => h) hsub
      · exact hp1 p id c n f hd
    · rw [t2] at hd
      rw [Bool.not_not, t1, l2]
      have := h.prog _ p id c n f hd
      rw [Bool.not_not] at this
      exact this.mono hA fun _ h => h

theorem Inv.step {files : Files} {all : List WildEvent} {seed : Bool → Nat} {n : Nat} {x : Sys} {log : Bool → List Sent} (h : Inv files all seed n x log)
    (hfiles : ∀ s path text, files s path = .ok (some text) → Good text) {e : WildEvent} (he : e ∈ all) (hg : e.Good) (hn : n ≤ 16777216) :
    ∃ log', Inv files all seed (n + 1) (x.wild files e) log' := by
  have hskip : ∃ log', Inv files all seed (n + 1) x log' :=
    ⟨log, fun s => Nat.le_succ_of_le (h.len s), h.send, h.recv, h.msgs, h.told, h.prog⟩
  cases e with
  | send s now path text size type =>
    apply h.did
    rw [sendString]
    split
    · exact .same (h.send s) (h.recv s) (by simp [sysexOf]) (by simp [NoFile, callbacksOf, received])
    split
    · exact .same (h.send s) (h.recv s) (by simp [sysexOf]) (by simp [NoFile, callbacksOf, received])
    refine startSend_does (h.send s) (h.recv s) ?_ (by omega) fun ht => ?_
    · rcases hg with ⟨h, -⟩ | h
      · exact .inl h
      · exact .inr h
    · rcases hg with ⟨-, h1, h2⟩ | h
      · subst ht; exact ⟨h1, h2, by rw [Int.toNat_natCast]; exact .inl ⟨now, he⟩⟩
      · rw [ht] at h; exact absurd h (by decide)
  | request s path size =>
    apply h.did
    rw [request]
    split
    · exact .same (h.send s) (h.recv s) (by simp [sysexOf]) (by simp [NoFile, callbacksOf, received])
    split
    · exact .same (h.send s) (h.recv s) (by simp [sysexOf]) (by simp [NoFile, callbacksOf, received])
    · refine .same (h.send s) (h.recv s) ?_ (by simp [NoFile, callbacksOf, received])
      intro m hm
      simp only [sysexOf, List.mem_singleton] at hm
      rw [hm]; exact .request _ _ hg (by rw [Int.toNat_natCast]; exact he)
  | deliver s now i =>
    simp only [Sys.wild]
    split
    · exact hskip
    rename_i m hm
    apply h.did
    apply receive_does
    exact dispatch_does (h.send s) (h.recv s) (h.send (!s)) (Nat.le_trans (h.len _) hn) (fun p t k hR ht => ⟨hfiles s p t ht, .inr ⟨ht, k, rfl, hR⟩⟩)
      (fun _ _ k ho => ⟨k, ho⟩) (h.msgs s m (List.mem_of_getElem? hm))
  | noise s now data =>
    simp only [Sys.wild]
    split
    · exact hskip
    rename_i hc
    apply h.did
    apply receive_does
    rw [dispatch]
    simp only
    rw [if_pos hc]
    exact .same (h.send s) (h.recv s) (by simp [sysexOf]) (by simp [NoFile, callbacksOf, received])
  | mode s t =>
    apply h.did
    exact .same (sendInv_sub (h.send s) rfl fun _ h => h) (h.recv s) (by simp [sysexOf]) (by simp [NoFile, callbacksOf, received])

theorem Inv.run {files : Files} {all : List WildEvent} {seed : Bool → Nat}
    (hfiles : ∀ s path text, files s path = .ok (some text) → Good text) (hall : all.length ≤ 16777216) :
    ∀ (es : List WildEvent) (n : Nat) (x : Sys) (log : Bool → List Sent), Inv files all seed n x log → n + es.length ≤ all.length →
      (∀ e ∈ es, e ∈ all ∧ e.Good) → ∃ n log', Inv files all seed n (x.wildRun files es) log'
  | [], n, x, log, h, _, _ => ⟨n, log, h⟩
  | e :: es, n, x, log, h, hl, hes => by
    simp only [List.length_cons] at hl
    obtain ⟨log', h'⟩ := h.step hfiles (hes e (by simp)).1 (hes e (by simp)).2 (by omega)
    exact Inv.run hfiles hall es (n + 1) _ log' h' (by omega) fun e he => hes e (by simp [he])

theorem Inv.start (files : Files) (seed : Bool → Nat) (throws : Bool → Bool) (es : List WildEvent)
    (hseed : ∀ s, seed s < 16777216) (hfiles : ∀ s path text, files s path = .ok (some text) → Good text)
    (hes : ∀ e ∈ es, e.Good) (hlen : es.length ≤ 16777216) : ∃ n log, Inv files es seed n ((Sys.start seed throws).wildRun files es) log := by
  have hi : Inv files es seed 0 (Sys.start seed throws) fun _ => [] := by
    refine ⟨fun _ => Nat.le_refl _, fun s => ⟨by simp, rfl, ?_, by simp [Sys.start]⟩, fun s => by simp [RecvInv, Sys.start],
      by simp [Sys.start], by simp [Sys.start, received], by simp [Sys.start]⟩
    have := hseed s
    simp only [Sys.start, List.length_nil]
    omega
  exact Inv.run hfiles hlen es 0 _ _ hi (by simp) fun e he => ⟨he, hes e he⟩

end C121

/-- C121, partial: whatever is lost, repeated, delayed or damaged in a way the checksum shows: each file of which a side is told is, path and
contents, a file which the other side sent or has to offer. (Missing: contents with parts which cannot be encoded, see C122, and damage which the
checksum does not show, see C120; and more than 16777216 events, after which the ids of the transmissions are used again.) -/
theorem C121_genuine_partial (files : Files) (seed : Bool → Nat) (throws : Bool → Bool) (es : List WildEvent)
    (hseed : ∀ s, seed s < 16777216) (hfiles : ∀ s path text, files s path = .ok (some text) → Good text)
    (hes : ∀ e ∈ es, e.Good) (hlen : es.length ≤ 16777216) (s : Bool) (path data : Str)
    (h : (some path, data) ∈ received (((Sys.start seed throws).wildRun files es).told s)) :
    (∃ now size, WildEvent.send (!s) now path data size typeFile ∈ es) ∨
    (files (!s) path = .ok (some data) ∧ ∃ size, WildEvent.request s path size ∈ es) := by
  obtain ⟨n, log, h'⟩ := C121.Inv.start files seed throws es hseed hfiles hes hlen
  obtain ⟨size, ⟨now, h⟩ | ⟨h1, k, -, h2⟩⟩ := h'.told s path data h
  · exact .inl ⟨now, size, h⟩
  · rw [Bool.not_not] at h2
    exact .inr ⟨h1, k, h2⟩

/-- Plain text is good. -/
theorem C121_plain_text (s : Str) (hs : s ≠ []) (hl : s.length < 16777216) (h : ∀ u ∈ s, u < 0xD800) : Sendable s ∧ Good s :=
  ⟨(C122_plain_text s h 1).1, hs, hl, fun k => (C122_plain_text s h k).2⟩

/-- One file each way; messages are lost, repeated, delayed and damaged. -/
def C121.exampleEvents : List WildEvent :=
  [.send true 10 (lit "/a") (lit "abcd") 3 typeFile, .request false (lit "/b") 2, .noise false 11 [3, 0, 0], .deliver false 12 1, .deliver false 13 0,
    .deliver false 13 0, .deliver false 14 1, .deliver false 15 1, .mode true true, .deliver true 16 0, .deliver true 16 5, .deliver true 17 5,
    .deliver false 18 2, .deliver false 19 3, .deliver false 19 4, .deliver false 20 3, .deliver false 21 0, .deliver false 21 4]

/-- The files of the example. -/
def C121.files : Files := fun _ path => .ok (if path = lit "/b" then some (lit "xy") else none)

example : ∀ e ∈ C121.exampleEvents, e.Good := by
  have h : ∀ s : Str, s ≠ [] → s.length < 100 → (∀ u ∈ s, u < 0xD800) → Sendable s ∧ Good s := fun s h1 h2 h3 => C121_plain_text s h1 (by omega) h3
  intro e he
  simp only [C121.exampleEvents, List.mem_cons, List.not_mem_nil, or_false] at he
  rcases he with rfl | rfl | rfl | rfl | rfl | rfl | rfl | rfl | rfl | rfl | rfl | rfl | rfl | rfl | rfl | rfl | rfl | rfl <;> try exact trivial
  · exact .inl ⟨rfl, (h _ (by decide) (by decide) (by decide)).1, (h _ (by decide) (by decide) (by decide)).2⟩
  · exact (h _ (by decide) (by decide) (by decide)).1

example : ∀ s path text, C121.files s path = .ok (some text) → Good text := by
  intro s path text h
  simp only [C121.files] at h
  split at h
  · cases h; exact (C121_plain_text _ (by decide) (by decide) (by decide)).2
  · cases h

example : received (((Sys.start (fun _ => 7) fun _ => false).wildRun C121.files C121.exampleEvents).told false) =
    [(some (lit "/b"), lit "xy"), (some (lit "/a"), lit "abcd")] := by decide +kernel

end PySwitch.Props
