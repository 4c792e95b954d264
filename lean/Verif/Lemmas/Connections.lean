import Verif.Spec.Connections
import Verif.Lemmas.BridgeFlow

/-! Lemmas for C146. -/

namespace PySwitch.Connections
open PySwitch.Bridge PySwitch.Spec.Bridge PySwitch.Lemmas.Bridge PySwitch.Connections.Spec

theorem run_append (ports : List String) (a b : List Ev) : run ports (a ++ b) = b.foldl (State.step ports) (run ports a) := List.foldl_append ..

/-- Invariant of all histories. -/
structure Inv (ports : List String) (s : State) : Prop where
  fresh : ∀ x ∈ s.listeners, x.1 < s.next ∧ x.2 ∈ ports
  ids : (s.listeners.map Prod.fst).Nodup
  split : s.listeners.Perm (s.made ++ s.pending)
  current : ∀ x, s.connection = some x → s.made.getLast? = some x

theorem nodup_of_split {ports : List String} {s : State} (h : Inv ports s) : ((s.made ++ s.pending).map Prod.fst).Nodup :=
  (h.split.map Prod.fst).nodup_iff.1 h.ids

theorem filter_ne_of_nodup {α : Type} {l : List (Nat × α)} {x : Nat × α} (hn : (l.map Prod.fst).Nodup) (hx : x ∈ l) :
    l.Perm (x :: l.filter fun y => y.1 != x.1) := by
  induction l with
  | nil => simp at hx
  | cons y l ih =>
    simp only [List.map_cons, List.nodup_cons] at hn
    rcases List.mem_cons.1 hx with rfl | hx
    · have : (x :: l).filter (fun y => y.1 != x.1) = l := by
        rw [List.filter_cons_of_neg (by simp), List.filter_eq_self]
        intro z hz
        simp only [bne_iff_ne, ne_eq]
        intro e
        exact hn.1 (e ▸ List.mem_map_of_mem hz)
      rw [this]
    · have hne : y.1 ≠ x.1 := fun e => hn.1 (e ▸ List.mem_map_of_mem hx)
      rw [List.filter_cons_of_pos (by simpa using hne)]
      exact ((ih hn.2 hx).cons y).trans (.swap ..)

theorem inv_step {ports : List String} {s : State} (h : Inv ports s) (e : Ev) : Inv ports (s.step ports e) := by
  cases e with
  | connect port =>
    simp only [State.step]
    by_cases h1 : s.connection.map Prod.snd = some port
    · rw [if_pos h1]; exact h
    · rw [if_neg h1]
      by_cases h2 : port ∉ ports
      · rw [if_pos h2]; exact ⟨h.fresh, h.ids, h.split, by simp⟩
      · rw [if_neg h2]
        refine ⟨?_, ?_, ?_, by simp⟩
        · intro x hx
          rcases List.mem_append.1 hx with hx | hx
          · have := h.fresh x hx
            exact ⟨Nat.lt_succ_of_lt this.1, this.2⟩
          · simp only [List.mem_singleton] at hx
            subst hx
            exact ⟨Nat.lt_succ_self _, by simpa using h2⟩
        · simp only [List.map_append, List.map_cons, List.map_nil]
          rw [List.nodup_append]
          refine ⟨h.ids, by simp, ?_⟩
          intro a ha b hb e
          simp only [List.mem_singleton] at hb
          obtain ⟨x, hx, rfl⟩ := List.mem_map.1 ha
          have := (h.fresh x hx).1
          omega
        · show (s.listeners ++ _).Perm (s.made ++ (s.pending ++ _))
          rw [← List.append_assoc]
          exact h.split.append_right _
  | answer i =>
    simp only [State.step]
    cases hf : s.pending.find? fun x => x.1 == i with
    | none => exact h
    | some x =>
      have hm := List.mem_of_find?_eq_some hf
      have hi : x.1 = i := by have := List.find?_some hf; simpa using this
      subst hi
      have hn := nodup_of_split h
      rw [List.map_append, List.nodup_append] at hn
      refine ⟨h.fresh, h.ids, ?_, ?_⟩
      · show s.listeners.Perm (s.made ++ [x] ++ s.pending.filter _)
        rw [List.append_assoc]
        exact h.split.trans ((filter_ne_of_nodup hn.2.1 hm).append_left _)
      · intro y hy
        simp only [Option.some.injEq] at hy
        subst hy
        simp
  | timeout i =>
    simp only [State.step]
    by_cases ha : (s.pending.any fun x => x.1 == i) = true
    · rw [if_pos ha]
      obtain ⟨x, hx, hi⟩ := List.any_eq_true.1 ha
      have hi : x.1 = i := by simpa using hi
      subst hi
      have hn := nodup_of_split h
      rw [List.map_append, List.nodup_append] at hn
      refine ⟨fun y hy => h.fresh y (List.mem_filter.1 hy).1, ?_, ?_, h.current⟩
      · exact h.ids.sublist (List.Sublist.map _ List.filter_sublist)
      · have := h.split.filter (fun y => y.1 != x.1)
        rw [List.filter_append] at this
        have hm : s.made.filter (fun y => y.1 != x.1) = s.made := by
          rw [List.filter_eq_self]
          intro z hz
          simp only [bne_iff_ne, ne_eq]
          intro e
          exact hn.2.2 _ (List.mem_map_of_mem hz) _ (List.mem_map_of_mem hx) e
        rw [hm] at this
        exact this
    · rw [if_neg ha]; exact h

theorem inv_run (ports : List String) (es : List Ev) : Inv ports (run ports es) := by
  have : ∀ (s : State), Inv ports s → Inv ports (es.foldl (State.step ports) s) := by
    induction es with
    | nil => exact fun s h => h
    | cons e es ih => exact fun s h => ih _ (inv_step h e)
  exact this {} ⟨by simp, by simp, by simp, by simp⟩

/-! ### Two bridges at one port -/

/-- One error message of the device: its transmission has one chunk. -/
structure Sent (d : Bridge) (i : Bytes) : Prop where
  len : i.length = 4
  small : ∀ b ∈ i, b < 128
  entry : ∃ tx, find i d.sends = some tx ∧ tx.nextChunk = 1 ∧ tx.amountChunks = 1

theorem text_small (n : Nat) (h : n < 128) : (textOf n).length ≤ 3 := by
  have : ∀ m : Fin 128, (textOf (m.1 : Int)).length ≤ 3 := by decide +kernel
  exact this ⟨n, h⟩

theorem text_id {i : Bytes} (hl : i.length = 4) (hs : ∀ b ∈ i, b < 128) : (idText i).length ≤ 15 := by
  obtain ⟨a, b, c, d, rfl⟩ := list4 hl
  have ha := text_small a (hs a (by simp))
  have hb := text_small b (hs b (by simp))
  have hc := text_small c (hs c (by simp))
  have hd := text_small d (hs d (by simp))
  have h1 : (lit ",").length = 1 := by decide
  simp only [idText, List.map_cons, List.map_nil, List.intersperse, List.flatten_cons, List.flatten_nil, List.length_append, List.length_nil, h1]
  omega

/-- A short error is sent in one chunk. -/
theorem error_sent (now : Nat) (text : Str) (b : Bridge) (ht : text ≠ []) (hl : text.length ≤ 100) :
    ∃ i d, (sendError now text b) = ⟨d, (sendError now text b).effs, none⟩ ∧ Sent d i ∧ d.throws = b.throws ∧
      sent (sendError now text b).effs = [Msg.enc (.start i 1 1 []), Msg.enc (.data i 0 text)] := by
  have hp : 0 < text.length := by cases text with | nil => exact absurd rfl ht | cons => simp
  have hn : (text.length + 100 - 1) / 100 = 1 := by omega
  refine ⟨number2bytes b.nextId 3, (sendError now text b).bridge, ?_, ⟨number3_length _, number_lt _ _, ?_⟩, ?_, ?_⟩
  all_goals
    simp only [sendError, sendString, if_neg ht, startSend, generateId, sendNextChunk]
  · rfl
  · refine ⟨_, find_put_self _ _ _, rfl, ?_⟩
    exact hn
  · rfl
  · simp only [sendChunk, Msg.enc, startMessage, typeError]
    have h100 : (100 : Int).toNat = 100 := rfl
    rw [if_neg (by decide)]
    simp only [sent, h100, hn, List.take_of_length_le hl]

theorem missing_short {i : Bytes} (hl : i.length = 4) (hs : ∀ b ∈ i, b < 128) :
    lit "Send transmission " ++ idText i ++ lit " not found" ≠ [] ∧ (lit "Send transmission " ++ idText i ++ lit " not found").length ≤ 100 := by
  have := text_id hl hs
  have h1 : (lit "Send transmission ").length = 18 := by decide
  have h2 : (lit " not found").length = 10 := by decide
  constructor
  · intro h
    have := congrArg List.length h
    simp [h1, h2] at this
  · simp only [List.length_append, h1, h2]
    omega

/-- The editor receives the start of an error. -/
theorem recv_start (now : Nat) (i : Bytes) (b : Bridge) (hl : i.length = 4) :
    ∃ b' effs tx, (receive (fun _ => .error []) now [0x00, 0x7c, 0x7d] (Msg.enc (.start i 1 1 [])) b).2 = ⟨b', effs, none⟩ ∧ sent effs = [] ∧
      find i b'.recvs = some tx ∧ tx.id = i ∧ tx.type = [1] ∧ tx.amountChunks = 1 ∧ tx.lastChunk = -1 := by
  have h := dispatch_start (fun _ => .error []) now i 1 1 [] b hl (by decide) ⟨.nil, by simp⟩
  exact ⟨_, _, _, receive_ok h rfl, rfl, find_put_self _ _ _, rfl, rfl, rfl, rfl⟩

/-- The editor receives the only chunk of an error: it sends an acknowledgement. -/
theorem recv_data (now : Nat) (i : Bytes) (text : Str) (b : Bridge) (hl : i.length = 4) {tx : RecvTx} (hf : find i b.recvs = some tx) (hi : tx.id = i)
    (ht : tx.type = [1]) (ha : tx.amountChunks = 1) (hc : tx.lastChunk = -1) :
    ∃ b' effs, (receive (fun _ => .error []) now [0x00, 0x7c, 0x7d] (Msg.enc (.data i 0 text)) b).2 = ⟨b', effs, none⟩ ∧
      sent effs = [Msg.enc (.ack i 0)] := by
  have h := dispatch_data (fun _ => .error []) now i 0 text b hl (by decide)
  rw [hf] at h
  simp only at h
  rw [if_neg (by rw [hc]; decide), if_pos (by rw [ha]; decide), finish_error (by exact ht)] at h
  refine ⟨_, _, receive_ok h rfl, ?_⟩
  simp only [List.cons_append, List.nil_append, sent, hi]
  rfl

/-- The editor waits for the chunk of an error. -/
def Waiting (i : Bytes) (b : Bridge) : Prop :=
  ∃ tx, find i b.recvs = some tx ∧ tx.id = i ∧ tx.type = [1] ∧ tx.amountChunks = 1 ∧ tx.lastChunk = -1

theorem waiting_next {i : Bytes} {b : Bridge} (h : Waiting i b) (n : Nat) : Waiting i { b with nextId := n } := h

/-- The four states of the two bridges and the device. -/
inductive Storm : Link → Prop
  | sent {l : Link} {a b : Bridge} {i : Bytes} {text : Str} (hb : l.bridges = [a, b]) (hs : Sent l.device i) (ht : l.device.throws = false)
      (h1 : l.toEditor = [Msg.enc (.start i 1 1 []), Msg.enc (.data i 0 text)]) (h2 : l.toDevice = []) : Storm l
  | started {l : Link} {a b : Bridge} {i : Bytes} {text : Str} (hb : l.bridges = [a, b]) (ha : Waiting i a) (hb' : Waiting i b) (hs : Sent l.device i)
      (ht : l.device.throws = false) (h1 : l.toEditor = [Msg.enc (.data i 0 text)]) (h2 : l.toDevice = []) : Storm l
  | acked {l : Link} {a b : Bridge} {i : Bytes} (hb : l.bridges = [a, b]) (hs : Sent l.device i) (ht : l.device.throws = false)
      (h1 : l.toEditor = []) (h2 : l.toDevice = [Msg.enc (.ack i 0), Msg.enc (.ack i 0)]) : Storm l
  | again {l : Link} {a b : Bridge} {i : Bytes} (hb : l.bridges = [a, b]) (hl : i.length = 4) (hs : ∀ x ∈ i, x < 128)
      (hf : find i l.device.sends = none) (ht : l.device.throws = false)
      (h1 : l.toEditor = []) (h2 : l.toDevice = [Msg.enc (.ack i 0)]) : Storm l

theorem Storm.busy {l : Link} (h : Storm l) : l.toEditor ≠ [] ∨ l.toDevice ≠ [] := by
  cases h with
  | sent _ _ _ h1 _ => left; rw [h1]; simp
  | started _ _ _ _ _ h1 _ => left; rw [h1]; simp
  | acked _ _ _ _ h2 => right; rw [h2]; simp
  | again _ _ _ _ _ _ h2 => right; rw [h2]; simp

theorem editor_none (files : Str → Except Str (Option Str)) {l : Link} (h : l.toEditor = []) (now : Nat) : l.step files (.editor now) = l := by
  simp only [Link.step, h]

theorem device_none (files : Str → Except Str (Option Str)) {l : Link} (h : l.toDevice = []) (now : Nat) : l.step files (.device now) = l := by
  simp only [Link.step, h]

theorem deliver_cons (now : Nat) (data : Bytes) (n : Nat) (a : Bridge) (bs : List Bridge) (a' : Bridge) (ea : List Eff)
    (h : hear now data n a = ⟨a', ea, none⟩) : deliver now data n (a :: bs) =
      ((deliver now data a'.nextId bs).1, a' :: (deliver now data a'.nextId bs).2.1, ea :: (deliver now data a'.nextId bs).2.2) := by
  rw [deliver]
  simp only [h, Option.isSome_none, Bool.false_eq_true, if_false]

theorem deliver_two (now : Nat) (data : Bytes) (n : Nat) (a b a' b' : Bridge) (ea eb : List Eff) (h1 : hear now data n a = ⟨a', ea, none⟩)
    (h2 : hear now data a'.nextId b = ⟨b', eb, none⟩) : deliver now data n [a, b] = (b'.nextId, [a', b'], [ea, eb]) := by
  rw [deliver_cons _ _ _ _ _ _ _ h1, deliver_cons _ _ _ _ _ _ _ h2]
  rfl

theorem sent_append : ∀ a b : List Eff, sent (a ++ b) = sent a ++ sent b
  | [], _ => rfl
  | .sysex d :: a, b => by simp only [List.cons_append, sent, sent_append a b]
  | .sendProgress .. :: a, b => by simp only [List.cons_append, sent, sent_append a b]
  | .receiveStart .. :: a, b => by simp only [List.cons_append, sent, sent_append a b]
  | .receiveProgress .. :: a, b => by simp only [List.cons_append, sent, sent_append a b]
  | .receiveFinish .. :: a, b => by simp only [List.cons_append, sent, sent_append a b]
  | .receiveAck .. :: a, b => by simp only [List.cons_append, sent, sent_append a b]
  | .onError .. :: a, b => by simp only [List.cons_append, sent, sent_append a b]

theorem Storm.editor {l : Link} (files : Str → Except Str (Option Str)) (h : Storm l) (now : Nat) : Storm (l.step files (.editor now)) := by
  cases h with
  | @sent a b i text hb hs ht h1 h2 =>
    obtain ⟨a', ea, ta, ra, sa, wa⟩ := recv_start now i { a with nextId := l.nextId } hs.len
    obtain ⟨b', eb, tb, rb, sb, wb⟩ := recv_start now i { b with nextId := a'.nextId } hs.len
    have hd := deliver_two now _ l.nextId a b a' b' ea eb ra rb
    refine .started (a := a') (b := b') (i := i) (text := text) ?_ ⟨ta, wa⟩ ⟨tb, wb⟩ ?_ ?_ ?_ ?_
    all_goals simp only [Link.step, h1, hb, hd]
    · exact hs
    · exact ht
    · simp only [h2, List.flatten_cons, List.flatten_nil, List.append_nil, sent_append, sa, sb]
  | @started a b i text hb ha hb' hs ht h1 h2 =>
    obtain ⟨ta, fa, wa⟩ := waiting_next ha l.nextId
    obtain ⟨a', ea, ra, sa⟩ := recv_data now i text { a with nextId := l.nextId } hs.len fa wa.1 wa.2.1 wa.2.2.1 wa.2.2.2
    obtain ⟨tb, fb, wb⟩ := waiting_next hb' a'.nextId
    obtain ⟨b', eb, rb, sb⟩ := recv_data now i text { b with nextId := a'.nextId } hs.len fb wb.1 wb.2.1 wb.2.2.1 wb.2.2.2
    have hd := deliver_two now _ l.nextId a b a' b' ea eb ra rb
    refine .acked (a := a') (b := b') (i := i) ?_ ?_ ?_ ?_ ?_
    all_goals simp only [Link.step, h1, hb, hd]
    · exact hs
    · exact ht
    · simp only [h2, List.flatten_cons, List.flatten_nil, List.append_nil, sent_append, sa, sb, List.nil_append, List.cons_append]
  | acked hb hs ht h1 h2 => rw [editor_none files h1]; exact .acked hb hs ht h1 h2
  | again hb hl hs hf ht h1 h2 => rw [editor_none files h1]; exact .again hb hl hs hf ht h1 h2

/-- The device answers an exception with an error message. -/
theorem receive_error (files : Str → Except Str (Option Str)) (now : Nat) (m : Bytes) (d : Bridge) (e : Str) (ht : d.throws = false)
    (h : dispatch files now m d = ⟨d, [], some e⟩) (he : (sendError now e d).error = none) :
    (receive files now [0x00, 0x7c, 0x7d] m d).2 = ⟨(sendError now e d).bridge, (sendError now e d).effs, none⟩ := by
  rw [receive, if_neg (by simp)]
  simp only [h]
  rw [ht]
  simp only [Bool.false_eq_true, if_false, List.nil_append, he]

theorem Storm.device {l : Link} (files : Str → Except Str (Option Str)) (h : Storm l) (now : Nat) : Storm (l.step files (.device now)) := by
  cases h with
  | sent hb hs ht h1 h2 => rw [device_none files h2]; exact .sent hb hs ht h1 h2
  | started hb ha hb' hs ht h1 h2 => rw [device_none files h2]; exact .started hb ha hb' hs ht h1 h2
  | @acked a b i hb hs ht h1 h2 =>
    obtain ⟨tx, hf, hn, ha⟩ := hs.entry
    have hr := receive_ok (ack_last (getFile := files) (now := now) (c := 0) hs.len (by decide) hf (by omega) (by omega)) rfl
    refine .again (a := a) (b := b) (i := i) ?_ hs.len hs.small ?_ ?_ ?_ ?_
    all_goals simp only [Link.step, h2, hr]
    · exact hb
    · exact find_del_self _ _
    · exact ht
    · rw [h1]; rfl
  | @again a b i hb hl hs hf ht h1 h2 =>
    obtain ⟨hne, hle⟩ := missing_short hl hs
    obtain ⟨j, d, hd, hsent, hth, hse⟩ := error_sent now _ l.device hne hle
    have hk := dispatch_ack files now i 0 l.device hl (by decide)
    rw [hf] at hk
    have hr := receive_error files now _ l.device _ ht hk (by rw [hd])
    refine .sent (a := a) (b := b) (i := j) (text := lit "Send transmission " ++ idText i ++ lit " not found") ?_ ?_ ?_ ?_ ?_
    all_goals simp only [Link.step, h2, hr]
    · exact hb
    · rw [hd]; exact hsent
    · rw [hd]; exact hth.trans ht
    · rw [h1, hse]; rfl

theorem Storm.run {l : Link} (files : Str → Except Str (Option Str)) (h : Storm l) (es : List LinkEv) (ho : OnlyMessages es) : Storm (l.run files es) := by
  induction es generalizing l with
  | nil => exact h
  | cons e es ih =>
    have ho' : OnlyMessages es := fun x hx => ho x (.tail _ hx)
    rcases ho e (.head _) with ⟨now, rfl⟩ | ⟨now, rfl⟩
    · exact ih (h.device files now) ho'
    · exact ih (h.editor files now) ho'

/-- The ping starts it. -/
theorem storm_ping (files : Str → Except Str (Option Str)) (hf : files pingPath = .ok none) (a b d : Bridge) (hd : d.throws = false) (n now : Nat) :
    Storm (Link.run files { bridges := [a, b], nextId := n, device := d } [.ping, .device now]) := by
  have hp : Sendable pingPath := by
    refine ⟨?_, by decide⟩
    have : ∀ s : Str, (∀ u ∈ s, u < 128) → WellFormed s := by
      intro s
      induction s with
      | nil => exact fun _ => .nil
      | cons u s ih =>
        intro h
        have := h u (.head _)
        exact .unit u s (by omega) (by omega) (ih fun v hv => h v (.tail _ hv))
    exact this _ (by decide)
  have hk := dispatch_request files now pingPath 100 d (by decide) hp
  have hs : sendFile files now pingPath (100 : Nat) d = ⟨d, [], some (pingPath ++ lit " not found or empty")⟩ := by
    rw [sendFile, if_neg (by decide), if_neg (by decide), hf]
  rw [hs] at hk
  obtain ⟨j, d', hd', hsent, hth, hse⟩ := error_sent now (pingPath ++ lit " not found or empty") d (by decide) (by decide)
  have hr := receive_error files now _ d _ hd hk (by rw [hd'])
  generalize hl : Link.step files { bridges := [a, b], nextId := n, device := d } .ping = l
  have hl' : l = { bridges := [a, { b with nextId := n }], nextId := n, device := d, toDevice := [Msg.enc (.request pingPath 100)],
                   told := [.sysex (Msg.enc (.request pingPath 100))] } := by
    rw [← hl]
    rfl
  simp only [Link.run, List.foldl_cons, List.foldl_nil, hl]
  subst hl'
  refine .sent (a := a) (b := { b with nextId := n }) (i := j) (text := pingPath ++ lit " not found or empty") ?_ ?_ ?_ ?_ ?_
  all_goals simp only [Link.step, hr]
  · rw [hd']; exact hsent
  · rw [hd']; exact hth.trans hd
  · rw [hse]; rfl

end PySwitch.Connections
