import Verif.Spec.Bridge
import Verif.Lemmas.Bridge
import Verif.Lemmas.BridgeText

/-! Messages of the bridge by their contents, and what is done when they are received. -/

namespace PySwitch.Lemmas.Bridge
open PySwitch.Bridge PySwitch.Spec.Bridge

@[simp] theorem checksum_length (d : Bytes) : (getChecksum d).length = 3 := by simp [getChecksum]

theorem list3 {l : Bytes} (h : l.length = 3) : ∃ a b c, l = [a, b, c] := by
  match l, h with
  | [a, b, c], _ => exact ⟨a, b, c, rfl⟩

theorem list4 {l : Bytes} (h : l.length = 4) : ∃ a b c d, l = [a, b, c, d] := by
  match l, h with
  | [a, b, c, d], _ => exact ⟨a, b, c, d, rfl⟩

theorem take4 {l : Bytes} (h : l.length = 4) (r : Bytes) : (l ++ r).take 4 = l := by
  obtain ⟨a, b, c, d, rfl⟩ := list4 h; rfl

theorem drop4 {l : Bytes} (h : l.length = 4) (r : Bytes) : (l ++ r).drop 4 = r := by
  obtain ⟨a, b, c, d, rfl⟩ := list4 h; rfl

/-- A message with command, checksum and payload is taken apart again. -/
theorem dispatch_parts (getFile : Str → Except Str (Option Str)) (now c : Nat) (sum payload : Bytes) (b : Bridge)
    (hs : sum.length = 3) : dispatch getFile now ([c] ++ sum ++ payload) b =
      if getChecksum payload ≠ sum then ⟨b, [], some (lit "Checksum mismatch")⟩
      else if c = 1 then receiveRequest getFile now payload b
      else if c = 2 then receiveStart now (payload.take 4) (payload.drop 4) b
      else if c = 3 then receiveData now (payload.take 4) (payload.drop 4) b
      else if c = 4 then receiveAck now (payload.take 4) (payload.drop 4) b
      else ⟨b, [], none⟩ := by
  obtain ⟨x, y, z, rfl⟩ := list3 hs
  simp [dispatch]

theorem dispatch_message (getFile : Str → Except Str (Option Str)) (now c : Nat) (payload : Bytes) (b : Bridge) :
    dispatch getFile now (message c payload) b =
      if c = 1 then receiveRequest getFile now payload b
      else if c = 2 then receiveStart now (payload.take 4) (payload.drop 4) b
      else if c = 3 then receiveData now (payload.take 4) (payload.drop 4) b
      else if c = 4 then receiveAck now (payload.take 4) (payload.drop 4) b
      else ⟨b, [], none⟩ := by
  rw [message, dispatch_parts _ _ _ _ _ _ (checksum_length _)]
  simp

theorem number_back (n : Nat) (h : n < 16777216) : bytes2number (number2bytes n 3) = (n : Int) := by
  rw [bytes2number3, Nat.mod_eq_of_lt h]

/-- The contents of a message. -/
inductive Msg where
  | request (path : Str) (size : Nat)
  | start (id : Bytes) (type : Nat) (n : Nat) (path : Str)
  | data (id : Bytes) (c : Nat) (chunk : Str)
  | ack (id : Bytes) (c : Nat)
deriving DecidableEq

def Msg.enc : Msg → Bytes
  | .request path size => requestMessage path size
  | .start id type n path => message 0x02 (id ++ [type] ++ number2bytes n 3 ++ string2bytes path)
  | .data id c chunk => message 0x03 (id ++ number2bytes c 3 ++ string2bytes chunk)
  | .ack id c => ackMessage id c

theorem dispatch_request (getFile : Str → Except Str (Option Str)) (now : Nat) (path : Str) (size : Nat) (b : Bridge)
    (hs : size < 16777216) (hp : Sendable path) :
    dispatch getFile now (Msg.enc (.request path size)) b = sendFile getFile now path size b := by
  rw [Msg.enc, requestMessage, dispatch_message]
  simp only [if_true, receiveRequest]
  rw [take4 (number3_length _), drop4 (number3_length _), number_back _ hs, text_back hp]

theorem dispatch_start (getFile : Str → Except Str (Option Str)) (now : Nat) (id : Bytes) (type n : Nat) (path : Str) (b : Bridge)
    (hi : id.length = 4) (hn : n < 16777216) (hp : Sendable path) :
    dispatch getFile now (Msg.enc (.start id type n path)) b =
      ⟨{ cleanup now b with recvs := put id { id, type := [type], amountChunks := n, path } (cleanup now b).recvs },
        [.receiveStart path id [type] n], none⟩ := by
  obtain ⟨x, y, z, w, e⟩ := list4 (number3_length n)
  have hn' := number_back n hn
  rw [Msg.enc, dispatch_message]
  simp only [List.append_assoc]
  rw [take4 hi, drop4 hi]
  rw [e] at hn' ⊢
  simp [receiveStart, hn', text_back hp]

theorem dispatch_data (getFile : Str → Except Str (Option Str)) (now : Nat) (id : Bytes) (c : Nat) (chunk : Str) (b : Bridge)
    (hi : id.length = 4) (hc : c < 16777216) :
    dispatch getFile now (Msg.enc (.data id c chunk)) b =
      match find id b.recvs with
      | none => ⟨b, [], some (lit "Receive transmission " ++ idText id ++ lit " not found")⟩
      | some tx =>
        if (c : Int) ≠ tx.lastChunk + 1 then
          ⟨b, [], some (lit "Invalid chunk " ++ textOf c ++ lit ", expected " ++ textOf (tx.lastChunk + 1))⟩
        else
          let tx := { tx with lastChunk := (c : Int), buffer := tx.buffer ++ bytes2string (string2bytes chunk), time := some now }
          let b := { b with recvs := put id tx b.recvs }
          let effs := [.sysex (ackMessage tx.id c), .receiveProgress tx.path tx.id c tx.amountChunks]
          if (c : Int) = tx.amountChunks - 1 then
            let r := receiveFinish tx b
            ⟨r.bridge, effs ++ r.effs, r.error⟩
          else ⟨b, effs, none⟩ := by
  rw [Msg.enc, dispatch_message]
  rw [show id ++ number2bytes c 3 ++ string2bytes chunk = id ++ (number2bytes c 3 ++ string2bytes chunk) from List.append_assoc ..]
  rw [take4 hi, drop4 hi, if_neg (by decide), if_neg (by decide), if_pos rfl, receiveData]
  rw [take4 (number3_length _), drop4 (number3_length _), number_back _ hc]
  simp only [Int.toNat_natCast]
  cases find id b.recvs <;> rfl

theorem dispatch_ack (getFile : Str → Except Str (Option Str)) (now : Nat) (id : Bytes) (c : Nat) (b : Bridge)
    (hi : id.length = 4) (hc : c < 16777216) :
    dispatch getFile now (Msg.enc (.ack id c)) b =
      match find id b.sends with
      | none => ⟨b, [], some (lit "Send transmission " ++ idText id ++ lit " not found")⟩
      | some tx =>
        if (c : Int) ≠ (tx.nextChunk : Int) - 1 then ⟨b, [], some (lit "Invalid ack chunk: " ++ textOf c)⟩
        else if tx.nextChunk = tx.amountChunks then ⟨{ b with sends := del id b.sends }, [.receiveAck id], none⟩
        else
          let r := sendNextChunk now tx b
          ⟨r.1, r.2, none⟩ := by
  rw [Msg.enc, ackMessage, dispatch_message, take4 hi, drop4 hi, if_neg (by decide), if_neg (by decide), if_neg (by decide),
    if_pos rfl, receiveAck, number_back _ hc]
  cases find id b.sends <;> rfl

/-! ### The maps -/

theorem find_put_self {β : Type} (k : Bytes) (v : β) : ∀ m, find k (put k v m) = some v
  | [] => by simp [put, find]
  | (k', v') :: rest => by
    by_cases h : k' = k
    · simp [put, find, h]
    · simp [put, find, h, find_put_self k v rest]

theorem find_put_other {β : Type} {k j : Bytes} (v : β) (h : j ≠ k) : ∀ m, find j (put k v m) = find j m
  | [] => by simp [put, find, Ne.symm h]
  | (k', v') :: rest => by
    by_cases h' : k' = k
    · subst h'; simp [put, find, Ne.symm h]
    · simp only [put, if_neg h', find, find_put_other v h rest]

theorem find_del_self {β : Type} (k : Bytes) : ∀ m : List (Bytes × β), find k (del k m) = none
  | [] => by simp [del, find]
  | (k', v') :: rest => by
    have ih := find_del_self k rest
    rw [del] at ih ⊢
    by_cases h : k' = k
    · simpa [h] using ih
    · simpa [h, find] using ih

theorem find_del_other {β : Type} {k j : Bytes} (h : j ≠ k) : ∀ m : List (Bytes × β), find j (del k m) = find j m
  | [] => by simp [del]
  | (k', v') :: rest => by
    have ih := find_del_other h rest
    rw [del] at ih ⊢
    by_cases h' : k' = k
    · subst h'; simp only [find, if_neg (Ne.symm h)]; simpa using ih
    · rw [List.filter_cons_of_pos (by simpa using h'), find, find, ih]

theorem mem_put {β : Type} {k : Bytes} {v : β} {e : Bytes × β} : ∀ {m}, e ∈ put k v m → e = (k, v) ∨ e ∈ m
  | [], h => by simpa [put] using h
  | (k', v') :: rest, h => by
    by_cases h' : k' = k
    · simp only [put, if_pos h', List.mem_cons] at h ⊢
      rcases h with h | h
      · exact .inl h
      · exact .inr (.inr h)
    · simp only [put, if_neg h', List.mem_cons] at h ⊢
      rcases h with h | h
      · exact .inr (.inl h)
      · rcases mem_put h with h | h
        · exact .inl h
        · exact .inr (.inr h)

theorem mem_del {β : Type} {k : Bytes} {e : Bytes × β} {m : List (Bytes × β)} : e ∈ del k m ↔ e ∈ m ∧ e.1 ≠ k := by
  simp [del]

theorem find_mem {β : Type} {k : Bytes} {v : β} : ∀ {m}, find k m = some v → (k, v) ∈ m
  | [], h => by simp [find] at h
  | (k', v') :: rest, h => by
    by_cases h' : k' = k
    · simp only [find, if_pos h', Option.some.injEq] at h; simp [h', h]
    · simp only [find, if_neg h'] at h; exact List.mem_cons_of_mem _ (find_mem h)

theorem find_none {β : Type} {k : Bytes} : ∀ {m : List (Bytes × β)}, (∀ e ∈ m, e.1 ≠ k) → find k m = none
  | [], _ => rfl
  | (k', v') :: rest, h => by
    rw [find, if_neg (h _ (List.mem_cons_self ..)), find_none fun e he => h e (List.mem_cons_of_mem _ he)]

theorem put_put {β : Type} (k : Bytes) (v w : β) : ∀ m, put k w (put k v m) = put k w m
  | [] => by simp [put]
  | (k', v') :: rest => by
    by_cases h : k' = k
    · simp [put, h]
    · simp [put, h, put_put k v w rest]

theorem fresh_all {now : Nat} {time : Option Nat} (h : ∀ t, time = some t → now ≤ t + 5000) : fresh now time = true := by
  cases time with
  | none => rfl
  | some t => have := h t rfl; simp [fresh]; omega

theorem cleanup_ready {now : Nat} {b : Bridge} (h : Ready now b) : cleanup now b = b := by
  have h1 : b.sends.filter (fun e => fresh now e.2.time) = b.sends :=
    List.filter_eq_self.2 fun e he => fresh_all (h.2.1 e he)
  have h2 : b.recvs.filter (fun e => fresh now e.2.time) = b.recvs :=
    List.filter_eq_self.2 fun e he => fresh_all (h.2.2 e he)
  rw [cleanup, h1, h2]

/-! ### Pieces -/

theorem pieces_eq (text : Str) (k : Nat) (hk : 1 ≤ k) : (text.length + k - 1) / k = pieces text k := by
  unfold pieces
  have hd := Nat.div_add_mod text.length k
  generalize hq : text.length / k = q at *
  generalize hr : text.length % k = r at *
  have hrk : r < k := by rw [← hr]; exact Nat.mod_lt _ hk
  by_cases h : r = 0
  · rw [if_pos h, Nat.add_zero]
    rw [Nat.div_eq_iff (by omega)]
    rw [Nat.mul_comm] at hd
    constructor <;> omega
  · rw [if_neg h, Nat.div_eq_iff (by omega), Nat.add_mul]
    rw [Nat.mul_comm] at hd
    constructor <;> omega

theorem pieces_pos {text : Str} {k : Nat} (hk : 1 ≤ k) (ht : text ≠ []) : 1 ≤ pieces text k := by
  rw [← pieces_eq text k hk]
  have : 0 < text.length := List.length_pos_iff.2 ht
  exact (Nat.le_div_iff_mul_le (by omega)).2 (by omega)

theorem pieces_all {text : Str} {k : Nat} (hk : 1 ≤ k) : text.length ≤ pieces text k * k := by
  unfold pieces
  have hd := Nat.div_add_mod text.length k
  rw [Nat.mul_comm] at hd
  have hrk : text.length % k < k := Nat.mod_lt _ hk
  by_cases h : text.length % k = 0
  · rw [if_pos h, Nat.add_zero]; omega
  · rw [if_neg h, Nat.add_mul]; omega

theorem take_piece (text : Str) (k i : Nat) : text.take (i * k) ++ piece text k i = text.take ((i + 1) * k) := by
  rw [piece, Nat.add_mul, Nat.one_mul, List.take_add]

theorem drop_piece (text : Str) (k i : Nat) : (text.drop (i * k)).take k = piece text k i := rfl

end PySwitch.Lemmas.Bridge
