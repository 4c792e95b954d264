import Verif.Model.DeviceController
import Verif.Props.BridgeSafe
import Verif.Props.Editor

/-!
C124: loading and saving files of a device.
-/

namespace PySwitch.Props
open PySwitch.Bridge PySwitch.Spec.Bridge PySwitch.Lemmas.Bridge

namespace C124

/-- The side of the editor is `true`, the one of the device is `false`. The editor calls `saveFile`. -/
def save (now : Nat) (path content : Str) : List WildEvent := [.mode true true, .send true now path content chunkSizeSend typeFile]

/-- The editor calls `loadFile`. -/
def load (path : Str) : List WildEvent := [.mode true true, .request true path chunkSizeRequest]

/-- These events are the calls. -/
theorem save_eq (files : Files) (x : Sys) (now : Nat) (path content : Str) :
    (x.wildRun files (save now path content)).bridge true = (saveFile now path content (x.bridge true)).bridge ∧
    (x.wildRun files (save now path content)).told true = x.told true ++ callbacksOf (saveFile now path content (x.bridge true)).effs ∧
    (x.wildRun files (save now path content)).toSide false = x.toSide false ++ sysexOf (saveFile now path content (x.bridge true)).effs := by
  simp [save, saveFile, Sys.wildRun, Sys.wild, Sys.did, upd, callbacksOf, sysexOf]

theorem load_eq (files : Files) (x : Sys) (path : Str) :
    (x.wildRun files (load path)).bridge true = (loadFile path (x.bridge true)).bridge ∧
    (x.wildRun files (load path)).told true = x.told true ++ callbacksOf (loadFile path (x.bridge true)).effs ∧
    (x.wildRun files (load path)).toSide false = x.toSide false ++ sysexOf (loadFile path (x.bridge true)).effs := by
  simp [load, loadFile, Sys.wildRun, Sys.wild, Sys.did, upd, callbacksOf, sysexOf]

/-- What the editor was told between two points of time. -/
def since (x y : Sys) : List Eff := (y.told true).drop (x.told true).length

theorem load_mem : ∀ {l : List Eff} {data : Str}, loadSettled l = some (.ok data) → ∃ path, (some path, data) ∈ received l
  | [], _, h => by simp [loadSettled] at h
  | e :: l, data, h => by
    cases e <;> simp only [loadSettled] at h
    case receiveFinish id path d n => simp at h; exact ⟨path, by simp [received, h]⟩
    case onError => simp at h
    all_goals
      obtain ⟨p, hp⟩ := load_mem h
      exact ⟨p, by simpa [received] using hp⟩

theorem save_mem : ∀ {l : List Eff}, saveSettled l = some (.ok ()) → ∃ path id c n, n = c + 1 ∧ Eff.sendProgress path id c n true ∈ l
  | [], h => by simp [saveSettled] at h
  | e :: l, h => by
    cases e <;> simp only [saveSettled] at h
    case sendProgress path id c n f =>
      split at h
      · obtain ⟨p, i, c, n, hn, h⟩ := save_mem h; exact ⟨p, i, c, n, hn, List.mem_cons_of_mem _ h⟩
      split at h
      · rename_i hf hc
        simp only [Bool.not_eq_false] at hf
        exact ⟨path, id, c, n, hc.symm, by simp [hf]⟩
      · obtain ⟨p, i, c, n, hn, h⟩ := save_mem h; exact ⟨p, i, c, n, hn, List.mem_cons_of_mem _ h⟩
    case onError => simp at h
    all_goals
      obtain ⟨p, i, c, n, hn, h⟩ := save_mem h
      exact ⟨p, i, c, n, hn, List.mem_cons_of_mem _ h⟩

theorem received_drop {l : List Eff} {n : Nat} {d : Delivery} (h : d ∈ received (l.drop n)) : d ∈ received l := by
  rw [← List.take_append_drop n l, received_append]
  exact List.mem_append_right _ h

end C124

/-- C124, partial: if loading is successful, what is returned are the contents of a file which the editor has asked for, or which the device has
sent on its own; so if nothing else was ever loaded or sent, it is the file. Whatever happened before (`pre`) and whatever is lost, repeated,
delayed or visibly damaged. (Missing: it is this file if others are loaded also, see `C124_load_witness`.) -/
theorem C124_load_partial (files : Files) (seed : Bool → Nat) (throws : Bool → Bool) (pre post : List WildEvent) (path : Str) (data : Str)
    (hseed : ∀ s, seed s < 16777216) (hfiles : ∀ s path text, files s path = .ok (some text) → Good text)
    (hes : ∀ e ∈ pre ++ C124.load path ++ post, e.Good) (hlen : (pre ++ C124.load path ++ post).length ≤ 16777216)
    (h : loadSettled (C124.since ((Sys.start seed throws).wildRun files pre)
      ((Sys.start seed throws).wildRun files (pre ++ C124.load path ++ post))) = some (.ok data)) :
    (∃ now p size, WildEvent.send false now p data size typeFile ∈ pre ++ post) ∨
    ∃ p, files false p = .ok (some data) ∧ (p = path ∨ ∃ size, WildEvent.request true p size ∈ pre ++ post) := by
  obtain ⟨p, hp⟩ := C124.load_mem h
  have := C121_genuine_partial files seed throws _ hseed hfiles hes hlen true p data (C124.received_drop hp)
  simp only [Bool.not_true, List.mem_append, C124.load, List.mem_cons, List.not_mem_nil, or_false] at this ⊢
  rcases this with ⟨now, size, h⟩ | ⟨h1, size, h2⟩
  · rcases h with (h | h) | h
    · exact .inl ⟨now, p, size, .inl h⟩
    · rcases h with h | h <;> cases h
    · exact .inl ⟨now, p, size, .inr h⟩
  · refine .inr ⟨p, h1, ?_⟩
    rcases h2 with (h | h) | h
    · exact .inr ⟨size, .inl h⟩
    · rcases h with h | h
      · cases h
      · cases h; exact .inl rfl
    · exact .inr ⟨size, .inr h⟩

/-- C124, partial: if saving is successful, the device has received all chunks but the last of a file which the editor sent. (Missing: the last
chunk, see `C124_unsaved_witness`.) -/
theorem C124_save_partial (files : Files) (seed : Bool → Nat) (throws : Bool → Bool) (pre post : List WildEvent) (now : Nat) (path content : Str)
    (hseed : ∀ s, seed s < 16777216) (hfiles : ∀ s path text, files s path = .ok (some text) → Good text)
    (hes : ∀ e ∈ pre ++ C124.save now path content ++ post, e.Good) (hlen : (pre ++ C124.save now path content ++ post).length ≤ 16777216)
    (h : saveSettled (C124.since ((Sys.start seed throws).wildRun files pre)
      ((Sys.start seed throws).wildRun files (pre ++ C124.save now path content ++ post))) = some (.ok ())) :
    ∃ p id text size, ((∃ t, WildEvent.send true t p text size typeFile ∈ pre ++ C124.save now path content ++ post) ∨
        (files true p = .ok (some text) ∧ ∃ k, size = k % 16777216 ∧ WildEvent.request false p k ∈ pre ++ C124.save now path content ++ post)) ∧
      ∀ i, i + 1 < pieces text size →
        ∃ q n, Eff.receiveProgress q id i n ∈ ((Sys.start seed throws).wildRun files (pre ++ C124.save now path content ++ post)).told false := by
  obtain ⟨p, id, c, n, hn, hp⟩ := C124.save_mem h
  obtain ⟨_, log, hi⟩ := C121.Inv.start files seed throws _ hseed hfiles hes hlen
  obtain ⟨⟨S, hS, e1, e2, e3, e4⟩, hall⟩ := hi.prog true _ _ _ _ _ (List.mem_of_mem_drop hp)
  have ht : S.type = typeFile := by simpa using e4.symm
  have hO := (((hi.send true).ok S hS).file ht).2.2.2
  refine ⟨p, id, S.text, S.size, ?_, fun i hi => ?_⟩
  · rw [e1]; simpa [C121.Origin] using hO
  · have : pieces S.text S.size = c + 1 := by rw [← hn, e3]; rfl
    exact hall i (by omega)

/-- C124, not in full: a file of up to 65 characters is saved successfully at once, before the device can have received anything. -/
theorem C124_unsaved_witness (now : Nat) (path content : Str) (b : Bridge) (h0 : content ≠ []) (h : content.length ≤ 65) :
    saveSettled (saveFile now path content b).effs = some (.ok ()) := by
  have hl : 0 < content.length := List.length_pos_iff.2 h0
  rw [saveFile, sendString, if_neg h0, if_neg (by decide)]
  simp [startSend, chunkSizeSend, generateId, sendNextChunk, sendChunk, saveSettled]
  omega

/-- C124, not in full: also a file of several chunks (here, with chunks of three characters) counts as saved although the last chunk got lost,
and the device never gets the file. -/
theorem C124_lost_witness :
    let x := (Sys.start (fun _ => 7) fun _ => false).wildRun C121.files
      [.send true 0 (lit "/a") (lit "abcd") 3 typeFile, .deliver false 1 0, .deliver false 1 1, .deliver true 2 0]
    saveSettled (x.told true) = some (.ok ()) ∧ received (x.told false) = [] ∧ (x.toSide false).length = 3 := by
  decide +kernel

/-- C124, not in full: an empty file cannot be saved; nothing is sent, and it is neither a success nor a failure. -/
theorem C124_empty_witness (now : Nat) (path : Str) (b : Bridge) :
    (saveFile now path [] b).effs = [] ∧ (saveFile now path [] b).error = some (lit "No message") ∧ saveSettled (saveFile now path [] b).effs = none :=
  ⟨rfl, rfl, rfl⟩

/-- C124, not in full: if another file was asked for just before, loading returns the contents of this one. -/
theorem C124_load_witness :
    let files : Files := fun _ path => .ok (if path = lit "/a" then some (lit "A") else if path = lit "/b" then some (lit "B") else none)
    let pre : List WildEvent := C124.load (lit "/b")
    let x := (Sys.start (fun _ => 7) fun _ => false).wildRun files pre
    let y := x.wildRun files (C124.load (lit "/a") ++ [.deliver false 1 0, .deliver true 2 0, .deliver true 2 1])
    loadSettled (C124.since x y) = some (.ok (lit "B")) := by
  decide +kernel

example : loadSettled (((Sys.start (fun _ => 7) fun _ => false).wildRun C121.files
    (C124.load (lit "/b") ++ [.deliver false 1 0, .deliver true 2 1, .deliver true 2 0, .deliver true 3 1])).told true) = some (.ok (lit "xy")) := by
  decide +kernel

set_option maxRecDepth 100000 in
/-- A file of 66 characters. -/
example :
    let x := (Sys.start (fun _ => 7) fun _ => false).wildRun C121.files
      (C124.save 0 (lit "/a") (List.replicate 66 97) ++ [.deliver false 1 0, .deliver false 1 1, .deliver true 2 0])
    saveSettled (x.told true) = some (.ok ()) ∧ received (x.told false) = [] := by
  decide +kernel

/-- C124: if no message is lost, loading is finished when all have been received, whatever else is sent and asked for. -/
theorem C124_finished (files : Files) (seed : Bool → Nat) (throws : Bool → Bool) (es : List Event) (path text : Str) (size : Nat)
    (hf : FairRun files (Sys.start seed throws) es) (hq : ∀ s, ((Sys.start seed throws).run files es).toSide s = [])
    (hr : Event.request true path size ∈ es) (ht : files false path = .ok (some text)) :
    loadSettled (((Sys.start seed throws).run files es).told true) ≠ none := by
  have h := (C122_delivered_partial files seed throws es hf hq true).1
  have hm : (some path, text) ∈ expected files true es := by
    clear h hf hq
    induction es with
    | nil => cases hr
    | cons e es ih =>
      rcases List.mem_cons.1 hr with rfl | hr
      · simp [expected, ht]
      · have := ih hr
        cases e <;> simp only [expected, List.mem_append, this, or_true]
  have hm := h.mem_iff.2 hm
  generalize ((Sys.start seed throws).run files es).told true = l at hm
  induction l with
  | nil => simp [received] at hm
  | cons e l ih => cases e <;> simp_all [received, loadSettled]

namespace C124

/-- The transmission with this id is finished, or goes on and the editor was told of the chunk sent last. -/
def Going (path : Str) (k : Bytes) (b : Bridge) (T : List Eff) : Prop :=
  (∃ c, Eff.sendProgress path k c (c + 1) true ∈ T) ∨
  ∃ tx, find k b.sends = some tx ∧ tx.id = k ∧ tx.path = path ∧ tx.type = typeFile ∧ 1 ≤ tx.nextChunk ∧
    Eff.sendProgress path k (tx.nextChunk - 1) tx.amountChunks true ∈ T

theorem Going.more {path : Str} {k : Bytes} {b b' : Bridge} {T : List Eff} (U : List Eff) (h : Going path k b T) (hb : find k b'.sends = find k b.sends) :
    Going path k b' (T ++ U) := by
  rcases h with ⟨c, h⟩ | ⟨tx, h1, h2, h3, h4, h5, h6⟩
  · exact .inl ⟨c, List.mem_append_left _ h⟩
  · exact .inr ⟨tx, by rw [hb, h1], h2, h3, h4, h5, List.mem_append_left _ h6⟩

/-- Transmissions are found under their ids. -/
def Keyed (b : Bridge) : Prop := ∀ k tx, find k b.sends = some tx → tx.id = k

theorem Keyed.put {b : Bridge} (h : Keyed b) (tx : SendTx) : Keyed { b with sends := put tx.id tx b.sends } := by
  intro k t ht
  simp only at ht
  by_cases hk : k = tx.id
  · rw [hk, find_put_self] at ht
    cases ht
    exact hk.symm
  · rw [find_put_other _ hk] at ht
    exact h k t ht

theorem Keyed.congr {b b' : Bridge} (h : Keyed b) (e : b'.sends = b.sends) : Keyed b' := by
  intro k t ht
  rw [e] at ht
  exact h k t ht

/-- No transmission which is being sent is idle, and the next id is not in use. -/
def SendsReady (now : Nat) (b : Bridge) : Prop :=
  (∀ e ∈ b.sends, e.1 ≠ number2bytes b.nextId 3) ∧ ∀ e ∈ b.sends, ∀ t, e.2.time = some t → now ≤ t + 5000

theorem cleanup_sends {now : Nat} {b : Bridge} (h : SendsReady now b) : (cleanup now b).sends = b.sends :=
  List.filter_eq_self.2 fun e he => fresh_all (h.2 e he)

theorem startSend_sends {now : Nat} {path text : Str} {k : Nat} {type : Bytes} {b : Bridge} (h : SendsReady now b) :
    ∃ tx : SendTx, (startSend now path text k type b).bridge.sends = put tx.id { tx with nextChunk := 1, message := text.drop k, time := some now }
        (put tx.id tx b.sends) ∧ tx.id = number2bytes b.nextId 3 ∧ tx.path = path ∧ tx.type = type ∧
      (startSend now path text k type b).effs =
        [.sysex (startMessage tx), .sendProgress path tx.id 0 tx.amountChunks (type == typeFile), .sysex (message 0x03 (tx.id ++ number2bytes 0 3 ++ string2bytes (text.take k)))] := by
  have hc : ∀ nx, (cleanup now { b with nextId := nx }).sends = b.sends := fun nx => List.filter_eq_self.2 fun e he => fresh_all (h.2 e he)
  simp only [startSend, generateId, sendNextChunk, sendChunk, hc]
  generalize number2bytes b.nextId 3 = i
  exact ⟨{ id := i, path, amountChunks := (text.length + k - 1) / k, chunkSize := k, message := text, type }, rfl, rfl, rfl, rfl, rfl⟩

theorem startSend_other {now : Nat} {path text : Str} {n : Nat} {type : Bytes} {b : Bridge} (h : SendsReady now b) {k : Bytes} {tx : SendTx}
    (hk : find k b.sends = some tx) : find k (startSend now path text n type b).bridge.sends = find k b.sends := by
  obtain ⟨t, e1, e2, -⟩ := startSend_sends (path := path) (text := text) (k := n) (type := type) h
  have hne : k ≠ t.id := by rw [e2]; exact h.1 _ (find_mem hk)
  rw [e1, find_put_other _ hne, find_put_other _ hne]

theorem Going.start {p : Str} {k : Bytes} {T : List Eff} {now : Nat} {path text : Str} {n : Nat} {type : Bytes} {b : Bridge} (h : SendsReady now b)
    (hg : Going p k b T) : Going p k (startSend now path text n type b).bridge (T ++ callbacksOf (startSend now path text n type b).effs) := by
  rcases hg with ⟨c, hc⟩ | ⟨tx, h1, h2⟩
  · exact .inl ⟨c, List.mem_append_left _ hc⟩
  · exact Going.more _ (.inr ⟨tx, h1, h2⟩) (startSend_other h h1)

theorem Going.same {p : Str} {k : Bytes} {T : List Eff} {b : Bridge} {r : Res} (hg : Going p k b T) (h : r.bridge.sends = b.sends) :
    Going p k r.bridge (T ++ callbacksOf r.effs) := hg.more _ (by rw [h])

theorem Going.sendString {p : Str} {k : Bytes} {T : List Eff} {now : Nat} {path text : Str} {n : Int} {type : Bytes} {b : Bridge} (h : SendsReady now b)
    (hg : Going p k b T) : Going p k (sendString now path text n type b).bridge (T ++ callbacksOf (sendString now path text n type b).effs) := by
  unfold Bridge.sendString
  split
  · exact hg.same rfl
  split
  · exact hg.same rfl
  · exact hg.start h

theorem Going.ack {p : Str} {k : Bytes} {T : List Eff} {now : Nat} {id payload : Bytes} {b : Bridge} (hkey : Keyed b) (hg : Going p k b T) :
    Going p k (receiveAck now id payload b).bridge (T ++ callbacksOf (receiveAck now id payload b).effs) := by
  unfold receiveAck
  split
  · exact hg.same rfl
  · rename_i tx hf
    dsimp only
    split
    · exact hg.same rfl
    · split
      · rename_i hlast
        rcases hg with ⟨c, hc⟩ | ⟨t, h1, h2, h3, h4, h5, h6⟩
        · exact .inl ⟨c, List.mem_append_left _ hc⟩
        · by_cases hk : k = id
          · subst hk
            rw [hf] at h1
            cases h1
            refine .inl ⟨tx.nextChunk - 1, List.mem_append_left _ ?_⟩
            rw [← hlast] at h6
            rw [show tx.nextChunk - 1 + 1 = tx.nextChunk by omega]
            exact h6
          · exact .inr ⟨t, by simp only; rw [find_del_other hk, h1], h2, h3, h4, h5, List.mem_append_left _ h6⟩
      · rcases hg with ⟨c, hc⟩ | ⟨t, h1, h2, h3, h4, h5, h6⟩
        · exact .inl ⟨c, List.mem_append_left _ hc⟩
        · have hid := hkey id tx hf
          by_cases hk : k = tx.id
          · rw [hk, hid, hf] at h1
            cases h1
            refine .inr ⟨{ tx with message := tx.message.drop tx.chunkSize, nextChunk := tx.nextChunk + 1, time := some now }, ?_, hk.symm, h3, h4, by simp, ?_⟩
            · simp only [sendNextChunk]
              rw [hk, find_put_self]
            · apply List.mem_append_right
              simp only [sendNextChunk, sendChunk, callbacksOf, h3, h4, hk, Nat.add_sub_cancel, beq_self_eq_true]
              exact List.mem_singleton.2 rfl
          · exact .inr ⟨t, by simp only [sendNextChunk]; rw [find_put_other _ hk, h1], h2, h3, h4, h5, List.mem_append_left _ h6⟩

theorem Keyed.start {now : Nat} {path text : Str} {n : Nat} {type : Bytes} {b : Bridge} (h : Keyed b) (hr : SendsReady now b) :
    Keyed (startSend now path text n type b).bridge := by
  obtain ⟨t, e1, -⟩ := startSend_sends (path := path) (text := text) (k := n) (type := type) hr
  have h1 := h.put t
  have h2 := h1.put { t with nextChunk := 1, message := text.drop n, time := some now }
  exact h2.congr e1

theorem Keyed.sendString {now : Nat} {path text : Str} {n : Int} {type : Bytes} {b : Bridge} (h : Keyed b) (hr : SendsReady now b) :
    Keyed (sendString now path text n type b).bridge := by
  unfold Bridge.sendString
  split
  · exact h
  split
  · exact h
  · exact h.start hr

theorem Keyed.ack {now : Nat} {id payload : Bytes} {b : Bridge} (h : Keyed b) : Keyed (receiveAck now id payload b).bridge := by
  unfold receiveAck
  split
  · exact h
  · rename_i tx hf
    dsimp only
    split
    · exact h
    · split
      · intro k t ht
        simp only at ht
        by_cases hk : k = id
        · rw [hk, find_del_self] at ht; cases ht
        · rw [find_del_other hk] at ht; exact h k t ht
      · exact h.put { tx with message := tx.message.drop tx.chunkSize, nextChunk := tx.nextChunk + 1, time := some now }

/-- What a bridge does is no problem for the transmissions it sends. -/
structure Keeps (now : Nat) (b : Bridge) (r : Res) : Prop where
  keyed : Keyed b → Keyed r.bridge
  going : ∀ p k T, Keyed b → Going p k b T → Going p k r.bridge (T ++ callbacksOf r.effs)
  error : r.error ≠ none → r.bridge.sends = b.sends ∧ r.bridge.nextId = b.nextId

theorem Keeps.same {now : Nat} {b : Bridge} {r : Res} (h : r.bridge.sends = b.sends) (hn : r.bridge.nextId = b.nextId) : Keeps now b r :=
  ⟨fun hk => hk.congr h, fun _ _ _ _ hg => hg.same h, fun _ => ⟨h, hn⟩⟩

theorem keeps_start {now : Nat} {path text : Str} {n : Nat} {type : Bytes} {b : Bridge} (hr : SendsReady now b) :
    Keeps now b (startSend now path text n type b) :=
  ⟨fun h => h.start hr, fun _ _ _ _ hg => hg.start hr, fun h => absurd (by simp only [startSend, generateId]) h⟩

theorem keeps_dispatch {getFile : Str → Except Str (Option Str)} {now : Nat} {data : Bytes} {b : Bridge} (hr : SendsReady now b) :
    Keeps now b (dispatch getFile now data b) := by
  unfold dispatch
  dsimp only
  split
  · exact .same rfl rfl
  split
  · unfold receiveRequest sendFile
    split
    · exact .same rfl rfl
    split
    · exact .same rfl rfl
    split
    · exact .same rfl rfl
    · exact .same rfl rfl
    · exact keeps_start hr
  split
  · refine .same ?_ ?_
    · simp only [receiveStart]; exact cleanup_sends hr
    · simp only [receiveStart, cleanup]
  split
  · unfold receiveData
    split
    · exact .same rfl rfl
    · dsimp only
      split
      · exact .same rfl rfl
      · split
        · unfold receiveFinish
          split
          · exact .same rfl rfl
          split
          · exact .same rfl rfl
          · exact .same rfl rfl
        · exact .same rfl rfl
  split
  · refine ⟨fun h => h.ack, fun _ _ _ hk hg => hg.ack hk, ?_⟩
    intro he
    revert he
    unfold receiveAck
    split
    · exact fun _ => ⟨rfl, rfl⟩
    · dsimp only
      split
      · exact fun _ => ⟨rfl, rfl⟩
      · split
        · exact fun h => absurd rfl h
        · exact fun h => absurd rfl h
  · exact .same rfl rfl

theorem callbacksOf_append : ∀ a b : List Eff, callbacksOf (a ++ b) = callbacksOf a ++ callbacksOf b
  | [], b => rfl
  | e :: a, b => by cases e <;> simp [callbacksOf, callbacksOf_append a b]

theorem keeps_receive {getFile : Str → Except Str (Option Str)} {now : Nat} {m data : Bytes} {b : Bridge} (hr : SendsReady now b) :
    (Keyed b → Keyed (receive getFile now m data b).2.bridge) ∧
    ∀ p k T, Keyed b → Going p k b T → Going p k (receive getFile now m data b).2.bridge (T ++ callbacksOf (receive getFile now m data b).2.effs) := by
  have hd := keeps_dispatch (getFile := getFile) (data := data) hr
  unfold receive
  split
  · exact ⟨id, fun p k T _ hg => hg.same (r := ⟨b, [], none⟩) rfl⟩
  · dsimp only
    split
    · exact ⟨hd.keyed, hd.going⟩
    · rename_i e he
      split
      · exact ⟨hd.keyed, hd.going⟩
      · obtain ⟨h1, h2⟩ := hd.error (by rw [he]; simp)
        have hr' : SendsReady now (dispatch getFile now data b).bridge := by
          unfold SendsReady
          rw [h1, h2]
          exact hr
        simp only [callbacksOf_append, ← List.append_assoc, sendError]
        generalize dispatch getFile now data b = r at *
        refine ⟨fun h => Keyed.sendString (hd.keyed h) hr', fun p k T hk hg => ?_⟩
        exact (hd.going p k T hk hg).sendString hr'

theorem ready_sends {now : Nat} {b : Bridge} (h : Ready now b) : SendsReady now b := ⟨h.1, h.2.1⟩

theorem did_bridge (x : Sys) (s t : Bool) (r : Res) : (x.did s r).bridge t = if t = s then r.bridge else x.bridge t := rfl

theorem did_told (x : Sys) (s t : Bool) (r : Res) : (x.did s r).told t = if t = s then x.told s ++ callbacksOf r.effs else x.told t := rfl

/-- One event. -/
theorem keeps_step {files : Files} {x : Sys} {e : Event} (hf : Fair files x e) (s : Bool) :
    ∃ U, (x.step files e).told s = x.told s ++ U ∧ (Keyed (x.bridge s) → Keyed ((x.step files e).bridge s)) ∧
      ∀ p k T, Keyed (x.bridge s) → Going p k (x.bridge s) T → Going p k ((x.step files e).bridge s) (T ++ U) := by
  have none : ∀ y : Sys, y.told s = x.told s → y.bridge s = x.bridge s → ∃ U, y.told s = x.told s ++ U ∧ (Keyed (x.bridge s) → Keyed (y.bridge s)) ∧
      ∀ p k T, Keyed (x.bridge s) → Going p k (x.bridge s) T → Going p k (y.bridge s) (T ++ U) := by
    intro y h1 h2
    refine ⟨[], by rw [h1, List.append_nil], by rw [h2]; exact id, ?_⟩
    intro p k T _ hg
    rw [h2, List.append_nil]; exact hg
  cases e with
  | send t now path text size type =>
    by_cases hs : s = t
    · subst hs
      refine ⟨_, by simp only [Sys.step, did_told]; rfl, ?_, ?_⟩
      · simp only [Sys.step, did_bridge]
        exact fun h => h.sendString (ready_sends hf.2.2)
      · simp only [Sys.step, did_bridge]
        exact fun p k T _ hg => hg.sendString (ready_sends hf.2.2)
    · exact none _ (by simp only [Sys.step, did_told, if_neg hs]) (by simp only [Sys.step, did_bridge, if_neg hs])
  | request t path size =>
    by_cases hs : s = t
    · subst hs
      have hb : (request path size (x.bridge s)).bridge = x.bridge s := by
        unfold request; split; · rfl
        split <;> rfl
      refine ⟨_, by simp only [Sys.step, did_told]; rfl, ?_, ?_⟩
      · simp only [Sys.step, did_bridge, hb]; exact id
      · simp only [Sys.step, did_bridge]
        exact fun p k T _ hg => hg.same (by rw [hb])
    · exact none _ (by simp only [Sys.step, did_told, if_neg hs]) (by simp only [Sys.step, did_bridge, if_neg hs])
  | deliver t now =>
    simp only [Sys.step]
    split
    · exact none _ rfl rfl
    · rename_i m rest hm
      by_cases hs : s = t
      · subst hs
        have hk := keeps_receive (getFile := files s) (m := [0x00, 0x7c, 0x7d]) (data := m) (ready_sends hf)
        refine ⟨_, by simp only [did_told]; rfl, ?_, ?_⟩
        · simp only [did_bridge]; exact hk.1
        · simp only [did_bridge]; exact hk.2
      · exact none _ (by simp only [did_told, if_neg hs]) (by simp only [did_bridge, if_neg hs])

theorem keeps_run {files : Files} (es : List Event) {x : Sys} (hf : FairRun files x es) (s : Bool) :
    ∃ U, (x.run files es).told s = x.told s ++ U ∧ (Keyed (x.bridge s) → Keyed ((x.run files es).bridge s)) ∧
      ∀ p k T, Keyed (x.bridge s) → Going p k (x.bridge s) T → Going p k ((x.run files es).bridge s) (T ++ U) := by
  induction es generalizing x with
  | nil => exact ⟨[], by simp [Sys.run], id, fun p k T _ hg => by rw [List.append_nil]; exact hg⟩
  | cons e es ih =>
    obtain ⟨U, h1, h2, h3⟩ := keeps_step hf.1 s
    obtain ⟨V, g1, g2, g3⟩ := ih hf.2
    refine ⟨U ++ V, ?_, fun h => g2 (h2 h), ?_⟩
    · show ((x.step files e).run files es).told s = _
      rw [g1, h1, List.append_assoc]
    · intro p k T hk hg
      rw [← List.append_assoc]
      exact g3 p k _ (h2 hk) (h3 p k T hk hg)

theorem save_of_mem : ∀ {l : List Eff} {path : Str} {id : Bytes} {c : Nat}, Eff.sendProgress path id c (c + 1) true ∈ l →
    saveSettled l = some (.ok ()) ∨ ∃ text, Eff.onError text ∈ l
  | [], _, _, _, h => by cases h
  | e :: l, path, id, c, h => by
    rcases List.mem_cons.1 h with rfl | h
    · left; simp [saveSettled]
    · rcases save_of_mem h with h' | ⟨t, h'⟩
      · cases e with
        | onError t => exact .inr ⟨t, by simp⟩
        | sendProgress p i d n f =>
          left
          simp only [saveSettled]
          split
          · exact h'
          split
          · rfl
          · exact h'
        | _ => left; simpa only [saveSettled] using h'
      · exact .inr ⟨t, List.mem_cons_of_mem _ h'⟩

theorem run_append (files : Files) (x : Sys) (a b : List Event) : x.run files (a ++ b) = (x.run files a).run files b := by
  simp [Sys.run]

theorem fair_append {files : Files} : ∀ (a : List Event) {x : Sys} {b : List Event}, FairRun files x (a ++ b) → FairRun files x a ∧ FairRun files (x.run files a) b
  | [], x, b, h => ⟨trivial, h⟩
  | e :: a, x, b, h => by
    obtain ⟨h1, h2⟩ := fair_append a h.2
    exact ⟨⟨h.1, h1⟩, h2⟩

end C124

/-- C124: if no message is lost, saving is successful when all have been received, or an error of the device was reported meanwhile; whatever else
is sent and asked for. -/
theorem C124_saved (files : Files) (seed : Bool → Nat) (throws : Bool → Bool) (pre post : List Event) (now : Nat) (path content : Str)
    (hf : FairRun files (Sys.start seed throws) (pre ++ .send true now path content chunkSizeSend typeFile :: post))
    (hq : ∀ s, ((Sys.start seed throws).run files (pre ++ .send true now path content chunkSizeSend typeFile :: post)).toSide s = []) :
    let told := C124.since ((Sys.start seed throws).run files pre)
      ((Sys.start seed throws).run files (pre ++ .send true now path content chunkSizeSend typeFile :: post))
    saveSettled told = some (.ok ()) ∨ ∃ text, Eff.onError text ∈ told := by
  have hend := (C122_delivered_partial files seed throws _ hf hq true).2.1
  obtain ⟨hf1, hf2, hf3⟩ := C124.fair_append pre hf
  have hk0 : C124.Keyed ((Sys.start seed throws).bridge true) := by intro k tx h; simp [Sys.start, find] at h
  obtain ⟨U, -, h2, -⟩ := C124.keeps_run pre hf1 true
  have hk1 := h2 hk0
  generalize hx : (Sys.start seed throws).run files pre = x at *
  have hr := C124.ready_sends hf2.2.2
  have hp := hf2.1
  have hstep : sendString now path content chunkSizeSend typeFile (x.bridge true) = startSend now path content 65 typeFile (x.bridge true) := by
    rw [sendString, if_neg hp.2.1, if_neg (by decide)]; rfl
  obtain ⟨tx, e1, e2, e3, e4, e5⟩ := C124.startSend_sends (path := path) (text := content) (k := 65) (type := typeFile) hr
  have hg : C124.Going path tx.id ((x.step files (.send true now path content chunkSizeSend typeFile)).bridge true)
      (callbacksOf (startSend now path content 65 typeFile (x.bridge true)).effs) := by
    refine .inr ⟨{ tx with nextChunk := 1, message := content.drop 65, time := some now }, ?_, rfl, e3, e4, Nat.le_refl _, ?_⟩
    · simp only [Sys.step, C124.did_bridge, hstep, if_true, e1, find_put_self]
    · rw [e5]; simp [callbacksOf]
  have hk2 : C124.Keyed ((x.step files (.send true now path content chunkSizeSend typeFile)).bridge true) := by
    simp only [Sys.step, C124.did_bridge, hstep]
    exact hk1.start hr
  obtain ⟨V, g1, -, g3⟩ := C124.keeps_run post hf3 true
  have hfin := g3 _ _ _ hk2 hg
  have hrun : (Sys.start seed throws).run files (pre ++ .send true now path content chunkSizeSend typeFile :: post) =
      (x.step files (.send true now path content chunkSizeSend typeFile)).run files post := by
    rw [C124.run_append, hx]; rfl
  rw [hrun] at hend ⊢
  have htold : C124.since x ((x.step files (.send true now path content chunkSizeSend typeFile)).run files post) =
      callbacksOf (startSend now path content 65 typeFile (x.bridge true)).effs ++ V := by
    rw [C124.since, g1]
    simp only [Sys.step, C124.did_told, hstep, if_true]
    rw [List.append_assoc, List.drop_left]
  rw [htold]
  rcases hfin with ⟨c, hc⟩ | ⟨t, ht, -⟩
  · exact C124.save_of_mem hc
  · rw [hend] at ht
    simp [find] at ht

set_option maxRecDepth 100000 in
/-- A file of 70 characters is saved while another one is loaded. -/
example :
    let es := [Event.request true (lit "/inputs.py") 5] ++ .send true 0 (lit "/a") (List.replicate 70 97) chunkSizeSend typeFile ::
      (List.replicate 10 [Event.deliver false 40, .deliver true 50]).flatten
    let x := (Sys.start (fun _ => 7) fun _ => false).run C122.files es
    FairRun C122.files (Sys.start (fun _ => 7) fun _ => false) es ∧ x.toSide true = [] ∧ x.toSide false = [] ∧
    saveSettled (x.told true) = some (.ok ()) :=
  ⟨C122.fair_of (by decide +kernel), by decide +kernel⟩

end PySwitch.Props
