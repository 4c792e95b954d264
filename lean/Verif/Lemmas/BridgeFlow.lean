import Verif.Lemmas.BridgeMsg

/-! Invariant of two bridges with messages in order. -/

namespace PySwitch.Lemmas.Bridge
open PySwitch.Bridge PySwitch.Spec.Bridge

/-- Where a transmission is: start and first chunk on the way, a chunk on the way, an acknowledgement on the way. -/
inductive Phase where
  | starting
  | data (c : Nat)
  | ack (c : Nat)

/-- A transmission which is not finished. -/
structure Act where
  id : Bytes
  type : Nat
  path : Str
  text : Str
  size : Nat
  phase : Phase

namespace Act

def n (a : Act) : Nat := pieces a.text a.size

/-- Index of the last chunk sent. -/
def idx (a : Act) : Nat :=
  match a.phase with
  | .starting => 0
  | .data c => c
  | .ack c => c

/-- Number of chunks received, if the receiver knows the transmission. -/
def got (a : Act) : Option Nat :=
  match a.phase with
  | .starting => none
  | .data c => some c
  | .ack c => if c + 1 = a.n then none else some (c + 1)

def startMsg (a : Act) : Msg := .start a.id a.type a.n a.path
def dataMsg (a : Act) (c : Nat) : Msg := .data a.id c (piece a.text a.size c)

def out (a : Act) : List Msg :=
  match a.phase with
  | .starting => [a.startMsg, a.dataMsg 0]
  | .data c => [a.dataMsg c]
  | .ack _ => []

def back (a : Act) : List Msg :=
  match a.phase with
  | .ack c => [.ack a.id c]
  | _ => []

def sendEntry (a : Act) (t : Option Nat) : SendTx :=
  { id := a.id, path := a.path, amountChunks := a.n, chunkSize := a.size, message := a.text.drop ((a.idx + 1) * a.size),
    type := [a.type], nextChunk := a.idx + 1, time := t }

def recvTx (a : Act) (t : Option Nat) (k : Nat) : RecvTx :=
  { id := a.id, type := [a.type], amountChunks := a.n, path := a.path, lastChunk := (k : Int) - 1,
    buffer := a.text.take (k * a.size), time := t }

def recvEntry (a : Act) (t : Option Nat) : Option RecvTx := a.got.map (a.recvTx t)

structure Ok (a : Act) : Prop where
  id : a.id.length = 4
  type : a.type = 0 ∨ a.type = 1
  proper : Proper a.path a.text a.size
  idx : a.idx < a.n

/-- What the receiver will still get. -/
def todo (a : Act) : List Delivery :=
  match a.phase with
  | .ack c => if c + 1 = a.n then [] else [(if a.type = 0 then some a.path else none, a.text)]
  | _ => [(if a.type = 0 then some a.path else none, a.text)]

def left (a : Act) : Nat :=
  match a.phase with
  | .starting => 2 * a.n + 1
  | .data c => 2 * (a.n - c)
  | .ack c => 2 * (a.n - c) - 1

end Act

/-- Messages of a transmission to its receiver. -/
def outOf (id : Bytes) : Msg → Bool
  | .start i .. => i = id
  | .data i .. => i = id
  | _ => false

/-- Messages of a transmission to its sender. -/
def ackOf (id : Bytes) : Msg → Bool
  | .ack i _ => i = id
  | _ => false

/-- All about one id. -/
structure View where
  send : Option SendTx
  recv : Option RecvTx
  out : List Msg
  back : List Msg

def View.empty : View := ⟨none, none, [], []⟩

def At (a : Act) (v : View) : Prop := ∃ t t', v = ⟨some (a.sendEntry t), a.recvEntry t', a.out, a.back⟩

/-- The transmissions in one direction. -/
structure Flow (v : Bytes → View) (acts : List Act) : Prop where
  ok : ∀ a ∈ acts, a.Ok
  nodup : (acts.map Act.id).Nodup
  at_ : ∀ a ∈ acts, At a (v a.id)
  none : ∀ id, id ∉ acts.map Act.id → v id = View.empty

theorem Flow.perm {v : Bytes → View} {l m : List Act} (h : Flow v l) (p : l.Perm m) : Flow v m where
  ok := fun a ha => h.ok a (p.mem_iff.2 ha)
  nodup := (p.map Act.id).nodup_iff.1 h.nodup
  at_ := fun a ha => h.at_ a (p.mem_iff.2 ha)
  none := fun id hid => h.none id fun hm => hid ((p.map Act.id).mem_iff.1 hm)

theorem Flow.congr {v v' : Bytes → View} {l : List Act} (h : Flow v l) (e : ∀ id, v' id = v id) : Flow v' l := by
  rw [show v' = v from funext e]; exact h

/-- One transmission goes on. -/
theorem Flow.next {v v' : Bytes → View} {a a' : Act} {l : List Act} (h : Flow v (a :: l)) (hid : a'.id = a.id) (ok : a'.Ok)
    (hv : ∀ id, id ≠ a.id → v' id = v id) (ha : At a' (v' a.id)) : Flow v' (a' :: l) where
  ok := by
    intro b hb
    rcases List.mem_cons.1 hb with rfl | hb
    · exact ok
    · exact h.ok b (List.mem_cons_of_mem _ hb)
  nodup := by simpa [hid] using h.nodup
  at_ := by
    intro b hb
    rcases List.mem_cons.1 hb with rfl | hb
    · rw [hid]; exact ha
    · have hne : b.id ≠ a.id := by
        intro he
        have := (List.nodup_cons.1 h.nodup).1
        exact this (he ▸ List.mem_map_of_mem hb)
      rw [hv _ hne]
      exact h.at_ b (List.mem_cons_of_mem _ hb)
  none := by
    intro id hn
    simp only [List.map_cons, List.mem_cons, hid] at hn
    rw [hv id fun e => hn (.inl e)]
    apply h.none
    simpa using hn

/-- One transmission ends. -/
theorem Flow.end_ {v v' : Bytes → View} {a : Act} {l : List Act} (h : Flow v (a :: l))
    (hv : ∀ id, id ≠ a.id → v' id = v id) (ha : v' a.id = View.empty) : Flow v' l where
  ok := fun b hb => h.ok b (List.mem_cons_of_mem _ hb)
  nodup := (List.nodup_cons.1 h.nodup).2
  at_ := by
    intro b hb
    have hne : b.id ≠ a.id := by
      intro he
      have := (List.nodup_cons.1 h.nodup).1
      exact this (he ▸ List.mem_map_of_mem hb)
    rw [hv _ hne]
    exact h.at_ b (List.mem_cons_of_mem _ hb)
  none := by
    intro id hn
    by_cases e : id = a.id
    · rw [e]; exact ha
    · rw [hv id e]
      apply h.none
      simp only [List.map_cons, List.mem_cons, not_or]
      exact ⟨e, hn⟩

/-- A transmission starts. -/
theorem Flow.add {v v' : Bytes → View} {a : Act} {l : List Act} (h : Flow v l) (hn : a.id ∉ l.map Act.id) (ok : a.Ok)
    (hv : ∀ id, id ≠ a.id → v' id = v id) (ha : At a (v' a.id)) : Flow v' (a :: l) where
  ok := by
    intro b hb
    rcases List.mem_cons.1 hb with rfl | hb
    · exact ok
    · exact h.ok b hb
  nodup := List.nodup_cons.2 ⟨hn, h.nodup⟩
  at_ := by
    intro b hb
    rcases List.mem_cons.1 hb with rfl | hb
    · exact ha
    · rw [hv _ fun e => hn (e ▸ List.mem_map_of_mem hb)]
      exact h.at_ b hb
  none := by
    intro id hid
    simp only [List.map_cons, List.mem_cons, not_or] at hid
    rw [hv id hid.1]
    exact h.none id hid.2

/-! ### The system -/

/-- Files asked for on the way to this side. -/
def reqs (files : Files) (s : Bool) : List Msg → List Delivery
  | [] => []
  | .request path _ :: r =>
    (match files s path with
      | .ok (some text) => [(some path, text)]
      | _ => []) ++ reqs files s r
  | _ :: r => reqs files s r

def reqCost (files : Files) (s : Bool) : List Msg → Nat
  | [] => 0
  | .request path size :: r =>
    (match files s path with
      | .ok (some text) => 2 * pieces text size + 2
      | _ => 0) + reqCost files s r
  | _ :: r => reqCost files s r

theorem reqs_append (files : Files) (s : Bool) : ∀ l m, reqs files s (l ++ m) = reqs files s l ++ reqs files s m
  | [], m => rfl
  | x :: l, m => by cases x <;> simp [reqs, reqs_append files s l m]

theorem reqCost_append (files : Files) (s : Bool) : ∀ l m, reqCost files s (l ++ m) = reqCost files s l + reqCost files s m
  | [], m => by simp [reqCost]
  | x :: l, m => by cases x <;> simp [reqCost, reqCost_append files s l m, Nat.add_assoc]

def view (br : Bool → Bridge) (msgs : Bool → List Msg) (s : Bool) (id : Bytes) : View :=
  ⟨find id (br s).sends, find id (br !s).recvs, (msgs !s).filter (outOf id), (msgs s).filter (ackOf id)⟩

def leftAll (acts : List Act) : Nat := (acts.map Act.left).sum

theorem leftAll_perm {l m : List Act} (p : l.Perm m) : leftAll l = leftAll m := (p.map Act.left).sum_nat

/-- A request which can be answered. -/
def ReqOk (files : Files) (s : Bool) (path : Str) (size : Nat) : Prop :=
  path ≠ [] ∧ Sendable path ∧ 1 ≤ size ∧ size < 16777216 ∧ ∃ text, files s path = .ok (some text) ∧ Proper path text size

structure InvM (files : Files) (x : Sys) (msgs : Bool → List Msg) (acts : Bool → List Act) (E : Bool → List Delivery) (c : Nat) : Prop where
  chan : ∀ s, x.toSide s = (msgs s).map Msg.enc
  flow : ∀ s, Flow (view x.bridge msgs s) (acts s)
  req : ∀ s path size, Msg.request path size ∈ msgs s → ReqOk files s path size
  files_ : ∀ s, (E s).Perm (received (x.told s) ++ (acts !s).flatMap Act.todo ++ reqs files (!s) (msgs !s))
  cost_ : c = leftAll (acts true) + leftAll (acts false) + reqCost files true (msgs true) + reqCost files false (msgs false)

def Inv (files : Files) (x : Sys) (E : Bool → List Delivery) (c : Nat) : Prop := ∃ msgs acts, InvM files x msgs acts E c

theorem InvM.perm {files : Files} {x : Sys} {msgs : Bool → List Msg} {acts : Bool → List Act} {E E' : Bool → List Delivery} {c : Nat}
    (h : InvM files x msgs acts E c) (p : ∀ s, (E' s).Perm (E s)) : InvM files x msgs acts E' c where
  chan := h.chan
  flow := h.flow
  req := h.req
  files_ := fun s => (p s).trans (h.files_ s)
  cost_ := h.cost_

/-- One may take the transmissions in another order. -/
theorem InvM.reorder {files : Files} {x : Sys} {msgs : Bool → List Msg} {acts acts' : Bool → List Act} {E : Bool → List Delivery} {c : Nat}
    (h : InvM files x msgs acts E c) (p : ∀ s, (acts s).Perm (acts' s)) : InvM files x msgs acts' E c where
  chan := h.chan
  flow := fun s => (h.flow s).perm (p s)
  req := h.req
  files_ := fun s => (h.files_ s).trans ((((p !s).flatMap_right _).append_left _).append_right _)
  cost_ := by rw [← leftAll_perm (p true), ← leftAll_perm (p false)]; exact h.cost_

@[simp] theorem upd_self {α : Type} (f : Bool → α) (s : Bool) (v : α) : upd f s v s = v := by simp [upd]
@[simp] theorem upd_not {α : Type} (f : Bool → α) (s : Bool) (v : α) : upd f s v (!s) = f (!s) := by cases s <;> simp [upd]
@[simp] theorem upd_not' {α : Type} (f : Bool → α) (s : Bool) (v : α) : upd f (!s) v s = f s := by cases s <;> simp [upd]

theorem both {P : Bool → Prop} (s : Bool) (h : P s) (h' : P (!s)) : ∀ t, P t := by
  intro t; cases s <;> cases t <;> assumption

theorem sum_sides (s : Bool) (f : Bool → Nat) : f true + f false = f s + f (!s) := by cases s <;> simp [Nat.add_comm]

theorem receive_ok {getFile : Str → Except Str (Option Str)} {now : Nat} {data : Bytes} {b : Bridge} {r : Res}
    (h : dispatch getFile now data b = r) (he : r.error = none) : (receive getFile now [0x00, 0x7c, 0x7d] data b).2 = r := by
  rw [receive, if_neg (by simp)]
  simp only [h]
  rw [he]

/-- Start of a transmission, for an unused id. -/
theorem startSend_ready {now : Nat} {path text : Str} {k : Nat} {type : Nat} {b : Bridge} (hr : Ready now b) (hp : Proper path text k) :
    let a : Act := ⟨number2bytes b.nextId 3, type, path, text, k, .starting⟩
    ∃ nx p, startSend now path text k [type] b =
      ⟨{ b with nextId := nx, sends := put a.id (a.sendEntry (some now)) b.sends },
        [.sysex a.startMsg.enc, p, .sysex (a.dataMsg 0).enc], none⟩ ∧ callbacksOf [p] = [p] ∧ sysexOf [p] = [] ∧ received [p] = [] := by
  intro a
  simp only [startSend, generateId]
  generalize (if b.nextId + 1 ≥ 16777216 then 0 else b.nextId + 1) = nx
  have hc : cleanup now { b with nextId := nx } = { b with nextId := nx } := by
    have h := cleanup_ready hr
    simp only [cleanup] at h ⊢
    have h1 := congrArg Bridge.sends h
    have h2 := congrArg Bridge.recvs h
    simp only at h1 h2
    rw [h1, h2]
  rw [hc, pieces_eq _ _ hp.2.2.1]
  refine ⟨nx, .sendProgress path a.id 0 a.n ([type] == typeFile), ?_, rfl, rfl, rfl⟩
  simp [sendNextChunk, sendChunk, put_put, Act.sendEntry, Act.startMsg, Act.dataMsg, Msg.enc, startMessage, Act.idx, Act.n, a, piece]

theorem filter_none {P : Msg → Bool} {l : List Msg} (h : ∀ m ∈ l, P m = false) : l.filter P = [] :=
  List.filter_eq_nil_iff.2 fun m hm => by simp [h m hm]

@[simp] theorem outOf_self_start (a : Act) : outOf a.id a.startMsg = true := by simp [outOf, Act.startMsg]
@[simp] theorem outOf_self_data (a : Act) (c : Nat) : outOf a.id (a.dataMsg c) = true := by simp [outOf, Act.dataMsg]
theorem outOf_start_ne {a : Act} {id : Bytes} (h : id ≠ a.id) : outOf id a.startMsg = false := by
  simp [outOf, Act.startMsg, Ne.symm h]
theorem outOf_data_ne {a : Act} {id : Bytes} (c : Nat) (h : id ≠ a.id) : outOf id (a.dataMsg c) = false := by
  simp [outOf, Act.dataMsg, Ne.symm h]
@[simp] theorem ackOf_start (a : Act) (id : Bytes) : ackOf id a.startMsg = false := rfl
@[simp] theorem ackOf_data (a : Act) (id : Bytes) (c : Nat) : ackOf id (a.dataMsg c) = false := rfl

/-- A side starts a transmission. -/
theorem InvM.start {files : Files} {x : Sys} {msgs : Bool → List Msg} {acts : Bool → List Act} {E : Bool → List Delivery} {c : Nat}
    (h : InvM files x msgs acts E c) {s : Bool} {now : Nat} {path text : Str} {k type : Nat}
    (hr : Ready now (x.bridge s)) (hp : Proper path text k) (ht : type = 0 ∨ type = 1) :
    ∃ msgs' acts', InvM files (x.did s (startSend now path text k [type] (x.bridge s))) msgs' acts'
      (upd E (!s) (E (!s) ++ [(if type = 0 then some path else none, text)])) (c + (2 * pieces text k + 1)) := by
  obtain ⟨nx, p, he, hp1, hp2, hp3⟩ := startSend_ready (type := type) hr hp
  generalize ha : Act.mk (number2bytes (x.bridge s).nextId 3) type path text k .starting = a at he
  have hid : a.id = number2bytes (x.bridge s).nextId 3 := by rw [← ha]
  have hph : a.phase = .starting := by rw [← ha]
  have hok : a.Ok := by
    refine ⟨by rw [hid]; simp, by rw [← ha]; exact ht, by rw [← ha]; exact hp, ?_⟩
    rw [← ha]; exact pieces_pos hp.2.2.1 hp.2.1
  have hfree : find a.id (x.bridge s).sends = none := find_none (by rw [hid]; exact hr.1)
  have hnot : a.id ∉ (acts s).map Act.id := by
    intro hm
    obtain ⟨b, hb, hbid⟩ := List.mem_map.1 hm
    obtain ⟨t, t', hv⟩ := (h.flow s).at_ b hb
    have := congrArg View.send hv
    simp only [view, hbid, hfree] at this
    exact absurd this (by simp)
  have hempty := (h.flow s).none a.id hnot
  simp only [view, View.empty, View.mk.injEq] at hempty
  rw [he]
  have hsx : sysexOf [.sysex a.startMsg.enc, p, .sysex (a.dataMsg 0).enc] = [a.startMsg, a.dataMsg 0].map Msg.enc := by
    cases p <;> simp_all [sysexOf]
  have hcb : callbacksOf [.sysex a.startMsg.enc, p, .sysex (a.dataMsg 0).enc] = [p] := by
    cases p <;> simp_all [callbacksOf]
  have hrec : ∀ l, received (l ++ [p]) = received l := by
    intro l
    induction l with
    | nil => exact hp3
    | cons e l ih => cases e <;> simp [received, ih]
  refine ⟨upd msgs (!s) (msgs (!s) ++ [a.startMsg, a.dataMsg 0]), upd acts s (a :: acts s), ?_, ?_, ?_, ?_, ?_⟩
  · refine both s ?_ ?_
    · simp [Sys.did, h.chan]
    · simp [Sys.did, h.chan, hsx]
  · refine both s ?_ ?_
    · simp only [upd_self]
      refine (h.flow s).add hnot hok ?_ ⟨some now, none, ?_⟩
      · intro id hne
        simp [view, Sys.did, find_put_other _ hne, List.filter_append, outOf_start_ne hne, outOf_data_ne 0 hne]
      · simp [view, Sys.did, find_put_self, List.filter_append, hempty.2.1, hempty.2.2.1, hempty.2.2.2, Act.recvEntry, Act.got,
          Act.out, Act.back, hph]
    · simp only [upd_not]
      refine (h.flow !s).congr fun id => ?_
      simp [view, Sys.did, List.filter_append]
  · refine both s ?_ ?_
    · intro path size hm
      simp only [upd_not'] at hm
      exact h.req s path size hm
    · intro path size hm
      simp only [upd_self, List.mem_append, List.mem_cons, Act.startMsg, Act.dataMsg, List.not_mem_nil, or_false, reduceCtorEq] at hm
      exact h.req _ path size hm
  · refine both s ?_ ?_
    · have := h.files_ s
      simp only [upd_not', Sys.did, upd_self, hcb, hrec, upd_not, reqs_append]
      simpa [reqs, Act.startMsg, Act.dataMsg] using this
    · have := h.files_ (!s)
      simp only [Bool.not_not] at this
      simp only [upd_not, Sys.did, upd_self, Bool.not_not, List.flatMap_cons]
      have ht : a.todo = [(if type = 0 then some path else none, text)] := by rw [← ha]; rfl
      rw [upd_not', ht]
      generalize [(if type = 0 then some path else none, text)] = T at *
      refine (this.append_right T).trans ?_
      simp only [List.append_assoc]
      refine List.Perm.append_left _ ?_
      rw [← List.append_assoc]
      exact List.perm_append_comm
  · have := h.cost_
    have hl : a.left = 2 * pieces text k + 1 := by rw [← ha]; rfl
    have e1 := sum_sides s fun s => leftAll (acts s)
    have e2 := sum_sides s fun s => reqCost files s (msgs s)
    have e3 := sum_sides s fun t => leftAll (upd acts s (a :: acts s) t)
    have e4 := sum_sides s fun t => reqCost files t (upd msgs (!s) (msgs (!s) ++ [a.startMsg, a.dataMsg 0]) t)
    simp only [upd_self, upd_not, upd_not', reqCost_append, reqCost, Act.startMsg, Act.dataMsg] at e1 e2 e3 e4
    simp only [leftAll, List.map_cons, List.sum_cons, hl] at e1 e3 this ⊢
    simp only [Act.startMsg, Act.dataMsg]
    omega

theorem received_append : ∀ a b : List Eff, received (a ++ b) = received a ++ received b
  | [], b => rfl
  | e :: a, b => by cases e <;> simp [received, received_append a b]

/-- Not a request. -/
def Msg.plain : Msg → Bool
  | .request .. => false
  | _ => true

theorem reqs_plain (files : Files) (s : Bool) : ∀ {l : List Msg}, (∀ m ∈ l, m.plain = true) → reqs files s l = []
  | [], _ => rfl
  | m :: l, h => by
    have ih := reqs_plain files s fun m hm => h m (List.mem_cons_of_mem _ hm)
    have := h m (List.mem_cons_self ..)
    cases m <;> simp_all [reqs, Msg.plain]

theorem reqCost_plain (files : Files) (s : Bool) : ∀ {l : List Msg}, (∀ m ∈ l, m.plain = true) → reqCost files s l = 0
  | [], _ => rfl
  | m :: l, h => by
    have ih := reqCost_plain files s fun m hm => h m (List.mem_cons_of_mem _ hm)
    have := h m (List.mem_cons_self ..)
    cases m <;> simp_all [reqCost, Msg.plain]

theorem reqs_cons (files : Files) (s : Bool) {m : Msg} (l : List Msg) (h : m.plain = true) : reqs files s (m :: l) = reqs files s l := by
  cases m <;> simp_all [reqs, Msg.plain]

theorem reqCost_cons (files : Files) (s : Bool) {m : Msg} (l : List Msg) (h : m.plain = true) :
    reqCost files s (m :: l) = reqCost files s l := by
  cases m <;> simp_all [reqCost, Msg.plain]

theorem reqCost_request {files : Files} {s : Bool} {path text : Str} (h : files s path = .ok (some text)) (size : Nat) (l : List Msg) :
    reqCost files s (.request path size :: l) = 2 * pieces text size + 2 + reqCost files s l := by
  rw [reqCost, h]

/-- A message other than a request is received. -/
theorem InvM.deliver {files : Files} {x : Sys} {msgs : Bool → List Msg} {acts acts' : Bool → List Act} {E : Bool → List Delivery} {c : Nat}
    (h : InvM files x msgs acts E c) {s : Bool} {M : Msg} {Ms ms : List Msg} {r : Res} (hM : msgs s = M :: Ms) (hp : M.plain = true)
    (hms : sysexOf r.effs = ms.map Msg.enc) (hp' : ∀ m ∈ ms, m.plain = true)
    (flow1 : Flow (view (upd x.bridge s r.bridge) (upd (upd msgs s Ms) (!s) (msgs (!s) ++ ms)) s) (acts' s))
    (flow2 : Flow (view (upd x.bridge s r.bridge) (upd (upd msgs s Ms) (!s) (msgs (!s) ++ ms)) (!s)) (acts' !s))
    (hf : ((acts !s).flatMap Act.todo).Perm (received (callbacksOf r.effs) ++ (acts' !s).flatMap Act.todo))
    (hf' : ((acts s).flatMap Act.todo).Perm ((acts' s).flatMap Act.todo))
    (hl : leftAll (acts' s) + leftAll (acts' !s) + 1 = leftAll (acts s) + leftAll (acts !s)) :
    ∃ c', c = c' + 1 ∧ InvM files (({ x with toSide := upd x.toSide s (Ms.map Msg.enc) } : Sys).did s r)
      (upd (upd msgs s Ms) (!s) (msgs (!s) ++ ms)) acts' E c' := by
  refine ⟨leftAll (acts' true) + leftAll (acts' false) + reqCost files true (upd (upd msgs s Ms) (!s) (msgs (!s) ++ ms) true) +
    reqCost files false (upd (upd msgs s Ms) (!s) (msgs (!s) ++ ms) false), ?_, ?_, ?_, ?_, ?_, rfl⟩
  · have := h.cost_
    have e1 := sum_sides s fun s => leftAll (acts s)
    have e2 := sum_sides s fun s => reqCost files s (msgs s)
    have e3 := sum_sides s fun t => leftAll (acts' t)
    have e4 := sum_sides s fun t => reqCost files t (upd (upd msgs s Ms) (!s) (msgs (!s) ++ ms) t)
    simp only [upd_self, upd_not', reqCost_append, reqCost_plain _ _ hp', hM, reqCost_cons _ _ _ hp] at e1 e2 e3 e4
    omega
  · refine both s ?_ ?_
    · simp [Sys.did]
    · simp [Sys.did, h.chan, hms]
  · exact both s flow1 flow2
  · refine both s ?_ ?_
    · intro path size hm
      simp only [upd_not', upd_self] at hm
      exact h.req s path size (by rw [hM]; exact List.mem_cons_of_mem _ hm)
    · intro path size hm
      simp only [upd_self, List.mem_append] at hm
      rcases hm with hm | hm
      · exact h.req _ path size hm
      · exact absurd (hp' _ hm) (by simp [Msg.plain])
  · refine both s ?_ ?_
    · have := h.files_ s
      simp only [Sys.did, upd_self, received_append, reqs_append, reqs_plain _ _ hp', List.append_nil, List.append_assoc] at this ⊢
      refine this.trans (List.Perm.append_left _ ?_)
      rw [← List.append_assoc]
      exact hf.append_right _
    · have := h.files_ (!s)
      simp only [Bool.not_not, hM, reqs_cons _ _ _ hp] at this
      simp only [Sys.did, upd_not, Bool.not_not, upd_not', upd_self]
      exact this.trans ((hf'.append_left _).append_right _)

theorem InvM.deliver' {files : Files} {x : Sys} {msgs : Bool → List Msg} {acts : Bool → List Act} {E : Bool → List Delivery} {c : Nat}
    (h : InvM files x msgs acts E c) {s : Bool} {M : Msg} {Ms : List Msg} (ms : List Msg) (acts' : Bool → List Act) {r : Res}
    (hM : msgs s = M :: Ms) (hp : M.plain = true)
    (hms : sysexOf r.effs = ms.map Msg.enc) (hp' : ∀ m ∈ ms, m.plain = true)
    (flow1 : Flow (view (upd x.bridge s r.bridge) (upd (upd msgs s Ms) (!s) (msgs (!s) ++ ms)) s) (acts' s))
    (flow2 : Flow (view (upd x.bridge s r.bridge) (upd (upd msgs s Ms) (!s) (msgs (!s) ++ ms)) (!s)) (acts' !s))
    (hf : ((acts !s).flatMap Act.todo).Perm (received (callbacksOf r.effs) ++ (acts' !s).flatMap Act.todo))
    (hf' : ((acts s).flatMap Act.todo).Perm ((acts' s).flatMap Act.todo))
    (hl : leftAll (acts' s) + leftAll (acts' !s) + 1 = leftAll (acts s) + leftAll (acts !s)) :
    ∃ c' msgs' acts', c = c' + 1 ∧ InvM files (({ x with toSide := upd x.toSide s (Ms.map Msg.enc) } : Sys).did s r) msgs' acts' E c' := by
  obtain ⟨c', hc, hI⟩ := h.deliver hM hp hms hp' flow1 flow2 hf hf' hl
  exact ⟨c', _, _, hc, hI⟩

/-- The transmission of a message is known. -/
theorem Flow.known {v : Bytes → View} {l : List Act} (h : Flow v l) {id : Bytes} (hne : (v id).out ≠ [] ∨ (v id).back ≠ []) :
    ∃ a m, l.Perm (a :: m) ∧ a.id = id := by
  by_cases hid : id ∈ l.map Act.id
  · obtain ⟨a, ha, e⟩ := List.mem_map.1 hid
    obtain ⟨m1, m2, rfl⟩ := List.append_of_mem ha
    exact ⟨a, m1 ++ m2, List.perm_middle, e⟩
  · have := h.none id hid
    rw [this] at hne
    simp [View.empty] at hne

theorem InvM.focus {files : Files} {x : Sys} {msgs : Bool → List Msg} {acts : Bool → List Act} {E : Bool → List Delivery} {c : Nat}
    (h : InvM files x msgs acts E c) {s : Bool} {id : Bytes}
    (hne : (view x.bridge msgs s id).out ≠ [] ∨ (view x.bridge msgs s id).back ≠ []) :
    ∃ acts' a l, InvM files x msgs acts' E c ∧ acts' s = a :: l ∧ a.id = id := by
  obtain ⟨a, m, p, e⟩ := (h.flow s).known hne
  refine ⟨upd acts s (a :: m), a, m, h.reorder ?_, by simp, e⟩
  exact both s (by simpa using p) (by simp)

theorem text_whole {text : Str} {k : Nat} (hk : 1 ≤ k) : text.take (pieces text k * k) = text :=
  List.take_of_length_le (pieces_all hk)

theorem data_mid {getFile : Str → Except Str (Option Str)} {now : Nat} {id : Bytes} {c : Nat} {chunk : Str} {b : Bridge} {tx : RecvTx}
    (hi : id.length = 4) (hc : c < 16777216) (hf : find id b.recvs = some tx) (h1 : (c : Int) = tx.lastChunk + 1)
    (h2 : (c : Int) ≠ tx.amountChunks - 1) (hs : Sendable chunk) :
    dispatch getFile now (Msg.enc (.data id c chunk)) b =
      ⟨{ b with recvs := put id { tx with lastChunk := (c : Int), buffer := tx.buffer ++ chunk, time := some now } b.recvs },
        [.sysex (ackMessage tx.id c), .receiveProgress tx.path tx.id c tx.amountChunks], none⟩ := by
  rw [dispatch_data _ _ _ _ _ _ hi hc, hf, text_back hs]
  simp only
  rw [if_neg (by simpa using h1), if_neg h2]

theorem finish_file {tx : RecvTx} {b : Bridge} (h : tx.type = [0]) : receiveFinish tx b =
    ⟨{ b with recvs := del tx.id b.recvs }, [.receiveFinish tx.id tx.path tx.buffer tx.amountChunks], none⟩ := by
  rw [receiveFinish, if_pos (show tx.type = typeFile from h)]

theorem finish_error {tx : RecvTx} {b : Bridge} (h : tx.type = [1]) : receiveFinish tx b =
    ⟨{ b with recvs := del tx.id b.recvs }, [.onError tx.buffer], none⟩ := by
  rw [receiveFinish, if_neg (by rw [h]; decide), if_pos (show tx.type = typeError from h)]

theorem data_last {getFile : Str → Except Str (Option Str)} {now : Nat} {id : Bytes} {c : Nat} {chunk : Str} {b : Bridge} {tx : RecvTx}
    (hi : id.length = 4) (hc : c < 16777216) (hf : find id b.recvs = some tx) (h1 : (c : Int) = tx.lastChunk + 1)
    (h2 : (c : Int) = tx.amountChunks - 1) (hs : Sendable chunk) (ht : tx.type = [0] ∨ tx.type = [1]) :
    dispatch getFile now (Msg.enc (.data id c chunk)) b =
      ⟨{ b with recvs := del tx.id (put id { tx with lastChunk := (c : Int), buffer := tx.buffer ++ chunk, time := some now } b.recvs) },
        [.sysex (ackMessage tx.id c), .receiveProgress tx.path tx.id c tx.amountChunks,
          if tx.type = [0] then .receiveFinish tx.id tx.path (tx.buffer ++ chunk) tx.amountChunks else .onError (tx.buffer ++ chunk)], none⟩ := by
  rw [dispatch_data _ _ _ _ _ _ hi hc, hf, text_back hs]
  simp only
  rw [if_neg (by simpa using h1), if_pos h2]
  rcases ht with ht | ht
  · rw [finish_file (by exact ht), if_pos ht]; rfl
  · rw [finish_error (by exact ht), if_neg (by rw [ht]; decide)]; rfl

theorem ack_mid {getFile : Str → Except Str (Option Str)} {now : Nat} {id : Bytes} {c : Nat} {b : Bridge} {tx : SendTx}
    (hi : id.length = 4) (hc : c < 16777216) (hf : find id b.sends = some tx) (h1 : tx.nextChunk = c + 1)
    (h2 : c + 1 ≠ tx.amountChunks) :
    dispatch getFile now (Msg.enc (.ack id c)) b = ⟨(sendNextChunk now tx b).1, (sendNextChunk now tx b).2, none⟩ := by
  rw [dispatch_ack _ _ _ _ _ hi hc, hf]
  simp only
  rw [if_neg (by simp only [h1]; omega), if_neg (by omega)]

theorem ack_last {getFile : Str → Except Str (Option Str)} {now : Nat} {id : Bytes} {c : Nat} {b : Bridge} {tx : SendTx}
    (hi : id.length = 4) (hc : c < 16777216) (hf : find id b.sends = some tx) (h1 : tx.nextChunk = c + 1)
    (h2 : c + 1 = tx.amountChunks) :
    dispatch getFile now (Msg.enc (.ack id c)) b = ⟨{ b with sends := del id b.sends }, [.receiveAck id], none⟩ := by
  rw [dispatch_ack _ _ _ _ _ hi hc, hf]
  simp only
  rw [if_neg (by simp only [h1]; omega), if_pos (by omega)]

/-- Start of a transmission is received. -/
theorem InvM.deliverStart {files : Files} {x : Sys} {msgs : Bool → List Msg} {acts : Bool → List Act} {E : Bool → List Delivery} {c : Nat}
    (h : InvM files x msgs acts E c) {s : Bool} {now : Nat} {id : Bytes} {type n : Nat} {path : Str} {Ms : List Msg}
    (hM : msgs s = .start id type n path :: Ms) (hr : Ready now (x.bridge s)) :
    ∃ c' msgs' acts', c = c' + 1 ∧ InvM files (({ x with toSide := upd x.toSide s (Ms.map Msg.enc) } : Sys).did s
      (receive (files s) now [0x00, 0x7c, 0x7d] (Msg.enc (.start id type n path)) (x.bridge s)).2) msgs' acts' E c' := by
  have hout : (view x.bridge msgs (!s) id).out = .start id type n path :: Ms.filter (outOf id) := by
    simp [view, hM, outOf]
  obtain ⟨acts, a, l, h, hal, rfl⟩ := h.focus (s := !s) (id := id) (.inl (by rw [hout]; simp))
  have hok := (h.flow !s).ok a (by rw [hal]; exact List.mem_cons_self ..)
  obtain ⟨t, t', hv⟩ := (h.flow !s).at_ a (by rw [hal]; exact List.mem_cons_self ..)
  have hv1 := congrArg View.send hv
  have hv2 := congrArg View.recv hv
  have hv3 := hout.symm.trans (congrArg View.out hv)
  have hv4 := congrArg View.back hv
  rcases a with ⟨id, ty, pa, text, k, ph⟩
  cases ph with
  | data c => simp [Act.out, Act.dataMsg] at hv3
  | ack c => simp [Act.out] at hv3
  | starting =>
  simp only [Act.out, Act.startMsg, List.cons.injEq, Msg.start.injEq, true_and] at hv3
  obtain ⟨⟨rfl, rfl, rfl⟩, hv3⟩ := hv3
  have hd := dispatch_start (files s) now id type (Act.n ⟨id, type, path, text, k, .starting⟩) path (x.bridge s) hok.id hok.proper.2.2.2.1 hok.proper.1
  rw [receive_ok hd rfl, cleanup_ready hr]
  refine h.deliver' [] (upd acts (!s) (⟨id, type, path, text, k, .data 0⟩ :: l)) hM rfl
    rfl (by simp) ?_ ?_ ?_ ?_ ?_
  · simp only [upd_not']
    refine (h.flow s).congr fun id => ?_
    simp [view, hM, ackOf]
  · have hfl := h.flow !s
    rw [hal] at hfl
    simp only [upd_self]
    refine hfl.next (a' := ⟨id, type, path, text, k, .data 0⟩) rfl ⟨hok.id, hok.type, hok.proper, pieces_pos hok.proper.2.2.1 hok.proper.2.1⟩ ?_ ⟨t, none, ?_⟩
    · intro j hj
      simp [view, find_put_other _ hj, hM, outOf, Ne.symm hj]
    · simp only [view, Bool.not_not, upd_not, upd_self, find_put_self, upd_not', List.append_nil] at hv1 hv4 ⊢
      rw [hv1, hv4, hv3]
      simp [Act.sendEntry, Act.recvEntry, Act.recvTx, Act.got, Act.out, Act.back, Act.idx, Act.n, Act.dataMsg]
  · rw [hal]; simp [callbacksOf, received, Act.todo]
  · simp
  · rw [hal]; simp [leftAll, Act.left, Act.n]; omega

/-- A chunk is received. -/
theorem InvM.deliverData {files : Files} {x : Sys} {msgs : Bool → List Msg} {acts : Bool → List Act} {E : Bool → List Delivery} {c : Nat}
    (h : InvM files x msgs acts E c) {s : Bool} {now : Nat} {id : Bytes} {i : Nat} {chunk : Str} {Ms : List Msg}
    (hM : msgs s = .data id i chunk :: Ms) :
    ∃ c' msgs' acts', c = c' + 1 ∧ InvM files (({ x with toSide := upd x.toSide s (Ms.map Msg.enc) } : Sys).did s
      (receive (files s) now [0x00, 0x7c, 0x7d] (Msg.enc (.data id i chunk)) (x.bridge s)).2) msgs' acts' E c' := by
  have hout : (view x.bridge msgs (!s) id).out = .data id i chunk :: Ms.filter (outOf id) := by
    simp [view, hM, outOf]
  obtain ⟨acts, a, l, h, hal, rfl⟩ := h.focus (s := !s) (id := id) (.inl (by rw [hout]; simp))
  have hok := (h.flow !s).ok a (by rw [hal]; exact List.mem_cons_self ..)
  obtain ⟨t, t', hv⟩ := (h.flow !s).at_ a (by rw [hal]; exact List.mem_cons_self ..)
  have hv1 := congrArg View.send hv
  have hv2 := congrArg View.recv hv
  have hv3 := hout.symm.trans (congrArg View.out hv)
  have hv4 := congrArg View.back hv
  rcases a with ⟨id, ty, path, text, k, ph⟩
  cases ph with
  | starting => simp [Act.out, Act.startMsg] at hv3
  | ack c => simp [Act.out] at hv3
  | data i' =>
  simp only [Act.out, Act.dataMsg, List.cons.injEq, Msg.data.injEq, true_and] at hv3
  obtain ⟨⟨rfl, rfl⟩, hv3⟩ := hv3
  have hi : i < pieces text k := hok.idx
  have hlt : i < 16777216 := Nat.lt_trans hok.idx hok.proper.2.2.2.1
  have hsend := hok.proper.2.2.2.2 i
  simp only [view, Bool.not_not, Act.recvEntry, Act.got, Option.map_some] at hv2
  have hfl := h.flow !s
  rw [hal] at hfl
  have hidt : ({ id := id, type := ty, path := path, text := text, size := k, phase := Phase.ack i } : Act).Ok :=
    ⟨hok.id, hok.type, hok.proper, hi⟩
  by_cases hlast : i + 1 = pieces text k
  · have hd := data_last (getFile := files s) (now := now) hok.id hlt hv2 (by simp only [Act.recvTx]; omega)
      (by simp only [Act.recvTx, Act.n]; omega) hsend (by simpa [Act.recvTx] using hok.type)
    simp only [Act.recvTx] at hd
    rw [take_piece, show text.take ((i + 1) * k) = text by rw [hlast, text_whole hok.proper.2.2.1]] at hd
    have hfin : ∀ (r : Res) (fin : Eff), dispatch (files s) now (Msg.enc (.data id i (piece text k i))) (x.bridge s) = r → r.error = none →
        (∃ tx, r.bridge = { x.bridge s with recvs := del id (put id tx (x.bridge s).recvs) }) →
        r.effs = [.sysex (ackMessage id i), .receiveProgress path id i (pieces text k : Nat), fin] → sysexOf [fin] = [] →
        received (callbacksOf [fin]) = Act.todo ⟨id, ty, path, text, k, .data i⟩ →
        ∃ c' msgs' acts', c = c' + 1 ∧ InvM files (({ x with toSide := upd x.toSide s (Ms.map Msg.enc) } : Sys).did s
          (receive (files s) now [0x00, 0x7c, 0x7d] (Msg.enc (.data id i (piece text k i))) (x.bridge s)).2) msgs' acts' E c' := by
      intro r fin hr he ⟨tx, hb⟩ hf hs ht
      rw [receive_ok hr he]
      refine h.deliver' [.ack id i] (upd acts (!s) (⟨id, ty, path, text, k, .ack i⟩ :: l)) hM rfl
        (by rw [hf]; cases fin <;> simp_all [sysexOf, Msg.enc]) (by simp [Msg.plain]) ?_ ?_ ?_ ?_ ?_
      · simp only [upd_not']
        refine (h.flow s).congr fun id => ?_
        simp [view, hM, ackOf, hb, outOf]
      · simp only [upd_self]
        refine hfl.next (a' := ⟨id, ty, path, text, k, .ack i⟩) rfl hidt ?_ ⟨t, none, ?_⟩
        · intro j hj
          simp [view, hb, find_del_other hj, find_put_other _ hj, hM, outOf, Ne.symm hj, ackOf]
        · simp only [view, Bool.not_not, upd_not, upd_self, upd_not', hb, find_del_self, List.filter_append] at hv1 hv4 ⊢
          rw [hv1, hv4, hv3]
          simp [Act.sendEntry, Act.recvEntry, Act.got, Act.out, Act.back, Act.idx, Act.n, ackOf, hlast]
      · rw [hal, hf]
        simp only [upd_self, List.flatMap_cons]
        have : received (callbacksOf [.sysex (ackMessage id i), .receiveProgress path id i (pieces text k : Nat), fin]) =
            received (callbacksOf [fin]) := by cases fin <;> simp [callbacksOf, received]
        rw [this, ht]
        have hz : Act.todo ⟨id, ty, path, text, k, .ack i⟩ = [] := by simp [Act.todo, Act.n, hlast]
        rw [hz, List.nil_append]
      · simp
      · rw [hal]; simp [leftAll, Act.left, Act.n]; omega
    refine hfin _ _ hd rfl ⟨_, rfl⟩ rfl ?_ ?_ <;> rcases hok.type with h0 | h0 <;> simp only at h0 <;> subst h0 <;>
      simp [sysexOf, callbacksOf, received, Act.todo]
  · have hd := data_mid (getFile := files s) (now := now) hok.id hlt hv2 (by simp only [Act.recvTx]; omega)
      (by simp only [Act.recvTx, Act.n]; omega) hsend
    simp only [Act.recvTx] at hd
    rw [take_piece] at hd
    rw [receive_ok hd rfl]
    refine h.deliver' [.ack id i] (upd acts (!s) (⟨id, ty, path, text, k, .ack i⟩ :: l)) hM rfl
      (by rfl) (by simp [Msg.plain]) ?_ ?_ ?_ ?_ ?_
    · simp only [upd_not']
      refine (h.flow s).congr fun id => ?_
      simp [view, hM, ackOf, outOf]
    · simp only [upd_self]
      refine hfl.next (a' := ⟨id, ty, path, text, k, .ack i⟩) rfl hidt ?_ ⟨t, some now, ?_⟩
      · intro j hj
        simp [view, find_put_other _ hj, hM, outOf, Ne.symm hj, ackOf]
      · simp only [view, Bool.not_not, upd_not, upd_self, upd_not', find_put_self, List.filter_append] at hv1 hv4 ⊢
        rw [hv1, hv4, hv3]
        simp [Act.sendEntry, Act.recvEntry, Act.recvTx, Act.got, Act.out, Act.back, Act.idx, Act.n, ackOf, hlast]
    · rw [hal]; simp [callbacksOf, received, Act.todo, Act.n, hlast]
    · simp
    · rw [hal]; simp [leftAll, Act.left, Act.n]; omega

/-- An acknowledgement is received. -/
theorem InvM.deliverAck {files : Files} {x : Sys} {msgs : Bool → List Msg} {acts : Bool → List Act} {E : Bool → List Delivery} {c : Nat}
    (h : InvM files x msgs acts E c) {s : Bool} {now : Nat} {id : Bytes} {i : Nat} {Ms : List Msg}
    (hM : msgs s = .ack id i :: Ms) :
    ∃ c' msgs' acts', c = c' + 1 ∧ InvM files (({ x with toSide := upd x.toSide s (Ms.map Msg.enc) } : Sys).did s
      (receive (files s) now [0x00, 0x7c, 0x7d] (Msg.enc (.ack id i)) (x.bridge s)).2) msgs' acts' E c' := by
  have hout : (view x.bridge msgs s id).back = .ack id i :: Ms.filter (ackOf id) := by
    simp [view, hM, ackOf]
  obtain ⟨acts, a, l, h, hal, rfl⟩ := h.focus (s := s) (id := id) (.inr (by rw [hout]; simp))
  have hok := (h.flow s).ok a (by rw [hal]; exact List.mem_cons_self ..)
  obtain ⟨t, t', hv⟩ := (h.flow s).at_ a (by rw [hal]; exact List.mem_cons_self ..)
  have hv1 := congrArg View.send hv
  have hv2 := congrArg View.recv hv
  have hv3 := congrArg View.out hv
  have hv4 := hout.symm.trans (congrArg View.back hv)
  rcases a with ⟨id, ty, path, text, k, ph⟩
  cases ph with
  | starting => simp [Act.back] at hv4
  | data c => simp [Act.back] at hv4
  | ack i' =>
  simp only [Act.back, List.cons.injEq, Msg.ack.injEq, true_and] at hv4
  obtain ⟨rfl, hv4⟩ := hv4
  have hi : i < pieces text k := hok.idx
  have hlt : i < 16777216 := Nat.lt_trans hok.idx hok.proper.2.2.2.1
  simp only [view] at hv1 hv2 hv3
  have hfl := h.flow s
  rw [hal] at hfl
  by_cases hlast : i + 1 = pieces text k
  · have hd := ack_last (getFile := files s) (now := now) hok.id hlt hv1 rfl hlast
    rw [receive_ok hd rfl]
    refine h.deliver' [] (upd acts s l) hM rfl (by rfl) (by simp) ?_ ?_ ?_ ?_ ?_
    · simp only [upd_self]
      refine hfl.end_ ?_ ?_
      · intro j hj
        simp [view, find_del_other hj, hM, ackOf, Ne.symm hj]
      · simp only [view, upd_self, upd_not, find_del_self, upd_not', List.append_nil]
        rw [hv2, hv3, hv4]
        simp [Act.recvEntry, Act.got, Act.n, hlast, Act.out, View.empty]
    · simp only [upd_not]
      refine (h.flow !s).congr fun id => ?_
      simp [view, hM, outOf]
    · simp [callbacksOf, received]
    · rw [hal]; simp [Act.todo, Act.n, hlast]
    · rw [hal]; simp [leftAll, Act.left, Act.n]; omega
  · have hd := ack_mid (getFile := files s) (now := now) hok.id hlt hv1 rfl hlast
    rw [receive_ok hd rfl]
    refine h.deliver' [.data id (i + 1) (piece text k (i + 1))] (upd acts s (⟨id, ty, path, text, k, .data (i + 1)⟩ :: l)) hM rfl (by rfl) (by simp [Msg.plain]) ?_ ?_ ?_ ?_ ?_
    · simp only [upd_self]
      refine hfl.next (a' := ⟨id, ty, path, text, k, .data (i + 1)⟩) rfl ⟨hok.id, hok.type, hok.proper, ?_⟩ ?_ ⟨some now, t', ?_⟩
      · simp only [Act.idx, Act.n]; omega
      · intro j hj
        simp [view, sendNextChunk, Act.sendEntry, find_put_other _ hj, hM, ackOf, outOf, Ne.symm hj]
      · simp only [view, upd_self, upd_not, sendNextChunk, Act.sendEntry, find_put_self, upd_not', List.filter_append]
        rw [hv2, hv3, hv4]
        simp [Act.recvEntry, Act.recvTx, Act.got, Act.n, hlast, Act.out, Act.back, Act.idx, outOf, Act.dataMsg, Nat.add_mul, Nat.add_assoc]
        rw [Nat.two_mul]
    · simp only [upd_not]
      refine (h.flow !s).congr fun id => ?_
      simp [view, hM, outOf, ackOf, sendNextChunk]
    · simp [callbacksOf, received, sendNextChunk, sendChunk]
    · rw [hal]; simp [Act.todo, Act.n, hlast]
    · rw [hal]; simp [leftAll, Act.left, Act.n]; omega

/-- A request is received. -/
theorem InvM.deliverRequest {files : Files} {x : Sys} {msgs : Bool → List Msg} {acts : Bool → List Act} {E : Bool → List Delivery} {c : Nat}
    (h : InvM files x msgs acts E c) {s : Bool} {now : Nat} {path : Str} {size : Nat} {Ms : List Msg}
    (hM : msgs s = .request path size :: Ms) (hr : Ready now (x.bridge s)) :
    ∃ c' msgs' acts', c = c' + 1 ∧ InvM files (({ x with toSide := upd x.toSide s (Ms.map Msg.enc) } : Sys).did s
      (receive (files s) now [0x00, 0x7c, 0x7d] (Msg.enc (.request path size)) (x.bridge s)).2) msgs' acts' E c' := by
  obtain ⟨hne, hsp, h1, hlt, text, hfile, hprop⟩ := h.req s path size (by rw [hM]; exact List.mem_cons_self ..)
  have hd := dispatch_request (files s) now path size (x.bridge s) hlt hsp
  rw [sendFile, if_neg hne, if_neg (by omega), hfile] at hd
  simp only [Int.toNat_natCast] at hd
  rw [receive_ok hd (by rfl)]
  -- without the request
  have hI : ∃ c0, c = c0 + (2 * pieces text size + 2) ∧ InvM files { x with toSide := upd x.toSide s (Ms.map Msg.enc) } (upd msgs s Ms) acts
      (upd E (!s) (received (x.told !s) ++ (acts s).flatMap Act.todo ++ reqs files s Ms)) c0 := by
    refine ⟨leftAll (acts true) + leftAll (acts false) + reqCost files true (upd msgs s Ms true) + reqCost files false (upd msgs s Ms false),
      ?_, ?_, ?_, ?_, ?_, rfl⟩
    · have := h.cost_
      have e2 := sum_sides s fun s => reqCost files s (msgs s)
      have e4 := sum_sides s fun t => reqCost files t (upd msgs s Ms t)
      simp only [upd_self, upd_not, hM, reqCost_request hfile] at e2 e4
      omega
    · exact both s (by simp) (by simp [h.chan])
    · intro t
      refine (h.flow t).congr fun id => ?_
      cases s <;> cases t <;> simp_all [view, outOf, ackOf, upd]
    · refine both s ?_ ?_
      · intro p k hm
        simp only [upd_self] at hm
        exact h.req s p k (by rw [hM]; exact List.mem_cons_of_mem _ hm)
      · intro p k hm
        simp only [upd_not] at hm
        exact h.req _ p k hm
    · refine both s ?_ ?_
      · simpa using h.files_ s
      · simp
  obtain ⟨c0, hc, hI⟩ := hI
  obtain ⟨msgs', acts', hS⟩ := hI.start (s := s) (type := 0) (now := now) (path := path) (text := text) (k := size) hr hprop (.inl rfl)
  refine ⟨c0 + (2 * pieces text size + 1), msgs', acts', by omega, hS.perm ?_⟩
  refine both s (by simp) ?_
  simp only [upd_self, if_true]
  have := h.files_ (!s)
  simp only [Bool.not_not, hM, reqs, hfile] at this
  refine this.trans ?_
  simp only [List.append_assoc]
  refine List.Perm.append_left _ (List.Perm.append_left _ ?_)
  exact List.perm_append_comm

/-- Each event keeps the invariant. -/
theorem Inv.step {files : Files} {x : Sys} {E : Bool → List Delivery} {c : Nat} (h : Inv files x E c) {e : Event} (hf : Fair files x e) :
    ∃ c', c' + delivered files x [e] = c + cost files [e] ∧
      Inv files (x.step files e) (fun s => E s ++ expected files s [e]) c' := by
  obtain ⟨msgs, acts, h⟩ := h
  cases e with
  | send s now path text size type =>
    obtain ⟨hp, ht, hr⟩ := hf
    obtain ⟨ty, hty, h01⟩ : ∃ ty, type = [ty] ∧ (ty = 0 ∨ ty = 1) := by
      rcases ht with rfl | rfl
      · exact ⟨0, rfl, .inl rfl⟩
      · exact ⟨1, rfl, .inr rfl⟩
    subst hty
    obtain ⟨msgs', acts', hI⟩ := h.start (s := s) (type := ty) (now := now) (path := path) (text := text) (k := size) hr hp h01
    refine ⟨c + (2 * pieces text size + 1), ?_, msgs', acts', ?_⟩
    rotate_left
    · rw [Sys.step, sendString, if_neg hp.2.1, if_neg (by have := hp.2.2.1; omega), Int.toNat_natCast]
      refine hI.perm ?_
      refine both s ?_ ?_
      · cases s <;> simp [expected, upd]
      · simp only [expected, upd_self, List.append_nil, typeFile]
        rcases h01 with rfl | rfl <;> simp
    · simp [delivered, cost]
  | request s path size =>
    obtain ⟨hne, hsp, h1, hlt, text, hfile, hprop⟩ := hf
    refine ⟨c + (2 * pieces text size + 2), by simp [delivered, cost, hfile], upd msgs (!s) (msgs (!s) ++ [.request path size]), acts, ?_⟩
    rw [Sys.step, request, if_neg hne, if_neg (by omega), Int.toNat_natCast]
    refine ⟨?_, ?_, ?_, ?_, ?_⟩
    · exact both s (by simp [Sys.did, h.chan]) (by simp [Sys.did, h.chan, sysexOf, Msg.enc])
    · intro t
      refine (h.flow t).congr fun id => ?_
      cases s <;> cases t <;> simp_all [view, outOf, ackOf, upd, Sys.did]
    · refine both s ?_ ?_
      · intro p k hm
        simp only [upd_not'] at hm
        exact h.req s p k hm
      · intro p k hm
        simp only [upd_self, List.mem_append, List.mem_singleton, Msg.request.injEq] at hm
        rcases hm with hm | ⟨rfl, rfl⟩
        · exact h.req _ p k hm
        · exact ⟨hne, hsp, h1, hlt, text, hfile, hprop⟩
    · refine both s ?_ ?_
      · simp only [Sys.did, upd_self, reqs_append, callbacksOf, List.append_nil, expected, hfile, reqs, if_true]
        rw [← List.append_assoc]
        exact (h.files_ s).append_right _
      · have := h.files_ (!s)
        simp only [Bool.not_not] at this
        have hz : expected files (!s) [.request s path size] = [] := by
          simp only [expected, Bool.not_not]
          split <;> simp
        simp only [Sys.did, upd_not, Bool.not_not, upd_not', hz, List.append_nil]
        exact this
    · have := h.cost_
      have e2 := sum_sides s fun s => reqCost files s (msgs s)
      have e4 := sum_sides s fun t => reqCost files t (upd msgs (!s) (msgs (!s) ++ [.request path size]) t)
      simp only [upd_self, upd_not', reqCost_append, reqCost_request hfile] at e2 e4
      simp only [reqCost] at e4
      omega
  | deliver s now =>
    have hE : (fun t => E t ++ expected files t [Event.deliver s now]) = E := by funext t; simp [expected]
    rw [hE]
    cases hM : msgs s with
    | nil =>
      have : x.toSide s = [] := by rw [h.chan, hM]; rfl
      refine ⟨c, by simp [delivered, cost, this], msgs, acts, ?_⟩
      rw [Sys.step, this]
      exact h
    | cons M Ms =>
      have ht : x.toSide s = M.enc :: Ms.map Msg.enc := by rw [h.chan, hM]; rfl
      have hx : x.step files (.deliver s now) = ({ x with toSide := upd x.toSide s (Ms.map Msg.enc) } : Sys).did s
          (receive (files s) now [0x00, 0x7c, 0x7d] M.enc (x.bridge s)).2 := by rw [Sys.step, ht]
      have key : ∃ c' msgs' acts', c = c' + 1 ∧ InvM files (({ x with toSide := upd x.toSide s (Ms.map Msg.enc) } : Sys).did s
          (receive (files s) now [0x00, 0x7c, 0x7d] M.enc (x.bridge s)).2) msgs' acts' E c' := by
        cases M with
        | request path size => exact h.deliverRequest hM hf
        | start id type n path => exact h.deliverStart hM hf
        | data id i chunk => exact h.deliverData hM
        | ack id i => exact h.deliverAck hM
      obtain ⟨c', msgs', acts', hc, hI⟩ := key
      refine ⟨c', ?_, msgs', acts', by rw [hx]; exact hI⟩
      simp [delivered, cost, ht, hc]

end PySwitch.Lemmas.Bridge
