import Verif.Lemmas.BridgeFlow

/-!
C122: files (and errors) sent over the bridge arrive, exactly once and unchanged.
C123: ids of transmissions.
-/

namespace PySwitch.Props
open PySwitch.Bridge PySwitch.Spec.Bridge PySwitch.Lemmas.Bridge

/-! ### C122 -/

theorem C122.run (files : Files) : ∀ (es : List Event) (x : Sys) (E : Bool → List Delivery) (c : Nat), Inv files x E c →
    FairRun files x es → ∃ c', c' + delivered files x es = c + cost files es ∧
      Inv files (x.run files es) (fun s => E s ++ expected files s es) c'
  | [], x, E, c, h, _ => ⟨c, by simp [delivered, cost], by simpa [expected, Sys.run] using h⟩
  | e :: es, x, E, c, h, hf => by
    obtain ⟨c1, e1, h1⟩ := h.step hf.1
    obtain ⟨c2, e2, h2⟩ := C122.run files es _ _ _ h1 hf.2
    have hd : delivered files x (e :: es) = delivered files x [e] + delivered files (x.step files e) es := by
      simp [delivered]
    have hc : cost files (e :: es) = cost files [e] + cost files es := by
      cases e <;> simp [cost]
    have he : ∀ s, expected files s (e :: es) = expected files s [e] ++ expected files s es := by
      intro s; cases e <;> simp [expected]
    refine ⟨c2, by omega, ?_⟩
    simpa [he, Sys.run, List.append_assoc] using h2

theorem C122.init (files : Files) (seed : Bool → Nat) (throws : Bool → Bool) :
    Inv files (Sys.start seed throws) (fun _ => []) 0 := by
  refine ⟨fun _ => [], fun _ => [], fun _ => rfl, fun s => ⟨by simp, by simp, by simp, fun _ _ => rfl⟩, by simp, fun s => ?_, rfl⟩
  simp [Sys.start, received, reqs]

theorem C122.find_all_none {β : Type} {m : List (Bytes × β)} (h : ∀ id, find id m = none) : m = [] := by
  cases m with
  | nil => rfl
  | cons e r =>
    have := h e.1
    simp [find] at this

theorem C122.left_pos {a : Act} (h : a.Ok) : 1 ≤ a.left := by
  have := h.idx
  cases hp : a.phase <;> simp only [Act.left, Act.idx, hp] at * <;> omega

theorem C122.acts_nil {files : Files} {x : Sys} {msgs : Bool → List Msg} {acts : Bool → List Act} {E : Bool → List Delivery} {c : Nat}
    (h : InvM files x msgs acts E c) (hq : ∀ s, x.toSide s = []) : (∀ s, msgs s = []) ∧ ∀ s, acts s = [] := by
  have hm : ∀ s, msgs s = [] := fun s => by
    have := h.chan s
    rw [hq s] at this
    exact List.map_eq_nil_iff.1 this.symm
  refine ⟨hm, fun s => ?_⟩
  cases ha : acts s with
  | nil => rfl
  | cons a l =>
    obtain ⟨t, t', hv⟩ := (h.flow s).at_ a (by rw [ha]; exact List.mem_cons_self ..)
    have h1 := congrArg View.out hv
    have h2 := congrArg View.back hv
    simp only [view, hm, List.filter_nil] at h1 h2
    cases hp : a.phase <;> simp [Act.out, Act.back, hp] at h1 h2

/-- C122: whatever the two sides send to each other and ask each other for, in any order and any number at once: when no
message is on its way any more, each side has been told of exactly what was sent to it or asked for by it (files with path
and contents, errors with their text), each once and unchanged, and no bridge keeps anything.
Missing: files which are empty, text with surrogate pairs on the border between chunks or byte order marks at the start of a
chunk, and transmissions which are idle for more than five seconds (see the witnesses). -/
theorem C122_delivered_partial (files : Files) (seed : Bool → Nat) (throws : Bool → Bool) (es : List Event)
    (hf : FairRun files (Sys.start seed throws) es)
    (hq : ∀ s, ((Sys.start seed throws).run files es).toSide s = []) (s : Bool) :
    (received (((Sys.start seed throws).run files es).told s)).Perm (expected files s es) ∧
    (((Sys.start seed throws).run files es).bridge s).sends = [] ∧ (((Sys.start seed throws).run files es).bridge s).recvs = [] := by
  obtain ⟨c, -, msgs, acts, h⟩ := C122.run files es _ _ _ (C122.init files seed throws) hf
  obtain ⟨hm, ha⟩ := C122.acts_nil h hq
  refine ⟨?_, ?_, ?_⟩
  · have := h.files_ s
    simp only [hm, ha, List.flatMap_nil, reqs, List.append_nil, List.nil_append] at this
    exact this.symm
  · refine C122.find_all_none fun id => ?_
    have := (h.flow s).none id (by simp [ha])
    exact congrArg View.send this
  · refine C122.find_all_none fun id => ?_
    have := (h.flow !s).none id (by simp [ha])
    simpa [view, View.empty] using congrArg View.recv this

/-- C122: a text of `n` chunks takes `2 n + 1` messages (one more if it is asked for). All is done exactly when this number of
messages has been received; never more are received. -/
theorem C122_effort_partial (files : Files) (seed : Bool → Nat) (throws : Bool → Bool) (es : List Event)
    (hf : FairRun files (Sys.start seed throws) es) :
    delivered files (Sys.start seed throws) es ≤ cost files es ∧
    (delivered files (Sys.start seed throws) es = cost files es ↔ ∀ s, ((Sys.start seed throws).run files es).toSide s = []) := by
  obtain ⟨c, hc, msgs, acts, h⟩ := C122.run files es _ _ _ (C122.init files seed throws) hf
  refine ⟨by omega, fun hd => ?_, fun hq => ?_⟩
  · have hc0 : c = 0 := by omega
    have hcost := h.cost_
    have h0 : ∀ s, leftAll (acts s) = 0 ∧ reqCost files s (msgs s) = 0 := by
      intro s; cases s <;> constructor <;> omega
    have ha : ∀ s, acts s = [] := by
      intro s
      cases hs : acts s with
      | nil => rfl
      | cons a l =>
        have h1 := C122.left_pos ((h.flow s).ok a (by rw [hs]; exact List.mem_cons_self ..))
        have h2 := (h0 s).1
        rw [hs] at h2
        simp only [leftAll, List.map_cons, List.sum_cons] at h2
        omega
    intro s
    rw [h.chan]
    cases hm : msgs s with
    | nil => rfl
    | cons M Ms =>
      exfalso
      have hv1 : ∀ id, (msgs s).filter (ackOf id) = [] := fun id => congrArg View.back ((h.flow s).none id (by simp [ha]))
      have hv2 : ∀ id, (msgs s).filter (outOf id) = [] := fun id => by
        simpa [view, View.empty] using congrArg View.out ((h.flow !s).none id (by simp [ha]))
      rw [hm] at hv1 hv2
      cases M with
      | request path size =>
        obtain ⟨-, -, -, -, text, hfile, -⟩ := h.req s path size (by rw [hm]; exact List.mem_cons_self ..)
        have := (h0 s).2
        rw [hm, reqCost_request hfile] at this
        omega
      | start id type n path => simpa [outOf] using hv2 id
      | data id i chunk => simpa [outOf] using hv2 id
      | ack id i => simpa [ackOf] using hv1 id
  · obtain ⟨hm, ha⟩ := C122.acts_nil h hq
    have := h.cost_
    simp only [hm, ha, leftAll, reqCost, List.map_nil, List.sum_nil] at this
    omega

/-! A concrete execution: the editor (`true`) asks the device for a file, sends another one at the same time, and the device
sends an error. -/

theorem C122.plain_wf : ∀ {s : Str}, (∀ u ∈ s, u < 0xD800) → WellFormed s
  | [], _ => .nil
  | u :: s, h => by
    have hu := h u (List.mem_cons_self ..)
    exact .unit u s (by omega) (by omega) (C122.plain_wf fun v hv => h v (List.mem_cons_of_mem _ hv))

/-- C122: text without surrogates and byte order marks can be sent in chunks of any size. -/
theorem C122_plain_text (s : Str) (h : ∀ u ∈ s, u < 0xD800) (k : Nat) : Sendable s ∧ SendableIn s k := by
  have key : ∀ t : Str, (∀ u ∈ t, u ∈ s) → Sendable t := by
    intro t ht
    refine ⟨C122.plain_wf fun u hu => h u (ht u hu), fun he => ?_⟩
    have := h _ (ht _ (List.mem_of_mem_head? he))
    omega
  exact ⟨key s fun _ h => h, fun i => key _ fun u hu => List.mem_of_mem_drop (List.mem_of_mem_take hu)⟩

/-- Fairness, as a check for plain text. -/
def C122.properB (path text : Str) (size : Nat) : Bool :=
  path.all (· < 0xD800) && text.all (· < 0xD800) && !text.isEmpty && decide (1 ≤ size) && decide (pieces text size < 16777216)

def C122.readyB (now : Nat) (b : Bridge) : Bool :=
  b.sends.all (fun e => decide (e.1 ≠ number2bytes b.nextId 3)) && b.sends.all (fun e => fresh now e.2.time) &&
    b.recvs.all fun e => fresh now e.2.time

def C122.fairB (files : Files) (x : Sys) : Event → Bool
  | .send s now path text size type => C122.properB path text size && decide (type = typeFile ∨ type = typeError) && C122.readyB now (x.bridge s)
  | .request s path size => !path.isEmpty && decide (1 ≤ size) && decide (size < 16777216) &&
      match files (!s) path with
      | .ok (some text) => C122.properB path text size
      | _ => false
  | .deliver s now => C122.readyB now (x.bridge s)

def C122.runB (files : Files) : Sys → List Event → Bool
  | _, [] => true
  | x, e :: es => C122.fairB files x e && C122.runB files (x.step files e) es

theorem C122.proper_of {path text : Str} {size : Nat} (h : C122.properB path text size = true) : Proper path text size := by
  simp only [C122.properB, Bool.and_eq_true, List.all_eq_true, decide_eq_true_eq, Bool.not_eq_true', List.isEmpty_eq_false_iff] at h
  exact ⟨(C122_plain_text path h.1.1.1.1 1).1, h.1.1.2, h.1.2, h.2, (C122_plain_text text h.1.1.1.2 size).2⟩

theorem C122.fresh_of {now : Nat} {time : Option Nat} (h : fresh now time = true) : ∀ t, time = some t → now ≤ t + 5000 := by
  intro t ht
  simp only [ht, fresh, Bool.not_eq_true', decide_eq_false_iff_not] at h
  omega

theorem C122.ready_of {now : Nat} {b : Bridge} (h : C122.readyB now b = true) : Ready now b := by
  simp only [C122.readyB, Bool.and_eq_true, List.all_eq_true, decide_eq_true_eq] at h
  exact ⟨h.1.1, fun e he => C122.fresh_of (h.1.2 e he), fun e he => C122.fresh_of (h.2 e he)⟩

theorem C122.fair_of {files : Files} : ∀ {es : List Event} {x : Sys}, C122.runB files x es = true → FairRun files x es
  | [], _, _ => trivial
  | e :: es, x, h => by
    simp only [C122.runB, Bool.and_eq_true] at h
    refine ⟨?_, C122.fair_of h.2⟩
    cases e with
    | send s now path text size type =>
      have := h.1
      simp only [C122.fairB, Bool.and_eq_true, decide_eq_true_eq] at this
      exact ⟨C122.proper_of this.1.1, this.1.2, C122.ready_of this.2⟩
    | request s path size =>
      have := h.1
      simp only [C122.fairB, Bool.and_eq_true, decide_eq_true_eq, Bool.not_eq_true', List.isEmpty_eq_false_iff] at this
      obtain ⟨⟨⟨h1, h2⟩, h3⟩, h4⟩ := this
      split at h4
      · rename_i text he
        exact ⟨h1, (C122.proper_of h4).1, h2, h3, text, he, C122.proper_of h4⟩
      · simp at h4
    | deliver s now => exact C122.ready_of h.1

def C122.files : Files := fun s path => if s = false ∧ path = lit "/inputs.py" then .ok (some (lit "Inputs = []")) else .ok none

def C122.exampleEvents : List Event :=
  [.request true (lit "/inputs.py") 4, .send true 10 (lit "/display.py") (lit "Splashes = 1") 5 typeFile,
    .deliver false 20, .send false 30 [] (lit "Oh no") 3 typeError] ++
  (List.replicate 10 [Event.deliver false 40, .deliver true 50]).flatten

example : FairRun C122.files (Sys.start (fun _ => 16777215) fun _ => false) C122.exampleEvents :=
  C122.fair_of (by decide +kernel)

example : let x := (Sys.start (fun _ => 16777215) fun _ => false).run C122.files C122.exampleEvents
    x.toSide true = [] ∧ x.toSide false = [] ∧
    received (x.told true) = [(none, lit "Oh no"), (some (lit "/inputs.py"), lit "Inputs = []")] ∧
    received (x.told false) = [(some (lit "/display.py"), lit "Splashes = 1")] := by decide +kernel

/-! ### Where it fails -/

/-- C122, not for all text: an emoji on the border between two chunks is replaced by two replacement characters (here, with chunks
of three characters; the editor sends 65 characters at once, `BRIDGE_CHUNK_SIZE_SEND`). -/
theorem C122_surrogates_witness :
    let text := [97, 98, 0xD83D, 0xDE00]
    let x := (Sys.start (fun _ => 3) fun _ => false).run C122.files
      ([.send true 0 (lit "/a") text 3 typeFile, .deliver false 0, .deliver false 0, .deliver true 0, .deliver false 0, .deliver true 0])
    WellFormed text ∧ x.toSide true = [] ∧ x.toSide false = [] ∧
    received (x.told false) = [(some (lit "/a"), [97, 98, 0xFFFD, 0xFFFD])] :=
  ⟨.unit _ _ (by decide) (by decide) (.unit _ _ (by decide) (by decide) (.pair _ _ _ (by decide) (by decide) .nil)),
    by decide +kernel, by decide +kernel, by decide +kernel⟩

/-- C122, not when a transmission is idle: if the first acknowledgement takes more than five seconds and something else
is sent meanwhile, the transmission is forgotten. The text does not arrive; the other side is told an error about an unknown transmission. -/
theorem C122_idle_witness :
    let x := (Sys.start (fun _ => 3) fun _ => false).run C122.files
      ([.send true 0 (lit "/a") (lit "abcdef") 3 typeFile, .deliver false 0, .deliver false 0, .send true 5001 (lit "/b") (lit "x") 3 typeFile] ++
        (List.replicate 6 [Event.deliver false 5001, .deliver true 5001]).flatten)
    x.toSide true = [] ∧ x.toSide false = [] ∧
    received (x.told false) = [(some (lit "/b"), lit "x"), (none, lit "Send transmission 0,0,0,48 not found")] := by
  decide +kernel

/-- The state of the endless transmission of an empty file: chunk `c` is on its way. -/
structure C122.Endless (c : Nat) (x : Sys) : Prop where
  data : x.toSide true = [Msg.enc (.data (number2bytes 7 3) c [])]
  acks : x.toSide false = []
  send : ∃ t, (x.bridge false).sends = [(number2bytes 7 3, ⟨number2bytes 7 3, lit "/a", 0, 5, [], typeFile, c + 1, t⟩)]
  recv : ∃ t, (x.bridge true).recvs = [(number2bytes 7 3, ⟨number2bytes 7 3, typeFile, 0, lit "/a", (c : Int) - 1, [], t⟩)]
  told : received (x.told true) = []

theorem C122.empty_sendable : Sendable [] := ⟨.nil, by simp⟩

theorem C122.endless_step (files : Files) (c : Nat) (hc : c < 16777216) (x : Sys) (h : C122.Endless c x) :
    C122.Endless (c + 1) (x.run files [.deliver true 0, .deliver false 0]) := by
  obtain ⟨t, ht⟩ := h.send
  obtain ⟨t', ht'⟩ := h.recv
  have h4 : (number2bytes 7 3).length = 4 := number3_length 7
  have hd := data_mid (getFile := files true) (now := 0) (b := x.bridge true) (chunk := []) h4 hc
    (by rw [ht', find, if_pos rfl]) (by simp only; omega) (by simp only; omega) C122.empty_sendable
  have h1 : x.step files (.deliver true 0) = ({ x with toSide := upd x.toSide true [] } : Sys).did true
      (receive (files true) 0 [0x00, 0x7c, 0x7d] (Msg.enc (.data (number2bytes 7 3) c [])) (x.bridge true)).2 := by
    rw [Sys.step, h.data]
  rw [receive_ok hd rfl] at h1
  have ha := ack_mid (getFile := files false) (now := 0) (b := x.bridge false) h4 hc (c := c)
    (by rw [ht, find, if_pos rfl]) (by simp only) (by simp only; omega)
  have h2 : x.run files [.deliver true 0, .deliver false 0] = (x.step files (.deliver true 0)).step files (.deliver false 0) := rfl
  have htf : (x.step files (.deliver true 0)).toSide false = [Msg.enc (.ack (number2bytes 7 3) c)] := by
    rw [h1]; simp [Sys.did, upd, h.acks, sysexOf, Msg.enc]
  have hbf : (x.step files (.deliver true 0)).bridge false = x.bridge false := by
    rw [h1]; simp [Sys.did, upd]
  have h3 : x.run files [.deliver true 0, .deliver false 0] =
      ({ x.step files (.deliver true 0) with toSide := upd (x.step files (.deliver true 0)).toSide false [] } : Sys).did false
      (receive (files false) 0 [0x00, 0x7c, 0x7d] (Msg.enc (.ack (number2bytes 7 3) c)) (x.bridge false)).2 := by
    rw [h2, Sys.step, htf]
    simp only [hbf]
  rw [receive_ok ha rfl, h1] at h3
  rw [h3]
  refine ⟨?_, ?_, ⟨some 0, ?_⟩, ⟨some 0, ?_⟩, ?_⟩
  · simp [Sys.did, upd, sendNextChunk, sendChunk, sysexOf, Msg.enc]
  · simp [Sys.did, upd]
  · simp [Sys.did, upd, sendNextChunk, put, ht]
  · simp [Sys.did, upd, ht', put]
  · simp [Sys.did, upd, callbacksOf, received_append, h.told, received]

/-- C122, not for empty files: when an empty file is asked for, chunks without contents go forth and back, for as many
messages as there are chunk numbers, and the file is never received. -/
theorem C122_empty_witness (n : Nat) (hn : n ≤ 16777216) :
    let x := (Sys.start (fun _ => 7) fun _ => false).run (fun _ _ => .ok (some []))
      (([.request true (lit "/a") 5, .deliver false 0, .deliver true 0] : List Event) ++
        (List.replicate n [Event.deliver true 0, .deliver false 0]).flatten)
    x.toSide true ≠ [] ∧ received (x.told true) = [] := by
  have key : ∀ n, n ≤ 16777216 → C122.Endless n ((Sys.start (fun _ => 7) fun _ => false).run (fun _ _ => .ok (some []))
      (([.request true (lit "/a") 5, .deliver false 0, .deliver true 0] : List Event) ++
        (List.replicate n [Event.deliver true 0, .deliver false 0]).flatten)) := by
    intro n
    induction n with
    | zero =>
      intro _
      exact ⟨by decide +kernel, by decide +kernel, ⟨some 0, by decide +kernel⟩, ⟨none, by decide +kernel⟩, by decide +kernel⟩
    | succ n ih =>
      intro hn
      have := C122.endless_step (fun _ _ => .ok (some [])) n (by omega) _ (ih (by omega))
      rw [List.replicate_succ', List.flatten_append, ← List.append_assoc]
      simpa [Sys.run, List.foldl_append] using this
  have h := key n hn
  exact ⟨by rw [h.data]; simp, h.told⟩

/-! ### C123 -/

/-- The id of the `i`-th transmission which a bridge starts from now on. -/
def C123.idAt (b : Bridge) : Nat → Bytes
  | 0 => (generateId b).1
  | i + 1 => C123.idAt (generateId b).2 i

theorem C123.idAt_eq : ∀ (i : Nat) (b : Bridge), b.nextId < 16777216 → C123.idAt b i = number2bytes ((b.nextId + i) % 16777216) 3
  | 0, b, h => by simp only [C123.idAt, generateId, Nat.add_zero]; rw [Nat.mod_eq_of_lt h]
  | i + 1, b, h => by
    have hn : (generateId b).2.nextId = (b.nextId + 1) % 16777216 := by
      simp only [generateId]; split <;> omega
    rw [C123.idAt, C123.idAt_eq i _ (by rw [hn]; omega), hn]
    congr 1
    omega

/-- C123: two of 16777216 successive transmissions of a bridge have different ids. Missing: this does not hold when the
random number for the first id is the largest one. -/
theorem C123_distinct_partial (b : Bridge) (h : b.nextId < 16777216) (i j : Nat) (hij : i < j) (hj : j < i + 16777216) :
    C123.idAt b i ≠ C123.idAt b j := by
  rw [C123.idAt_eq i b h, C123.idAt_eq j b h]
  intro he
  have := number3_inj (by omega) (by omega) he
  omega

example : C123.idAt { nextId := 16777215 } 0 = [127, 127, 127, 112] ∧ C123.idAt { nextId := 16777215 } 1 = [0, 0, 0, 0] := by decide +kernel

/-- C123: each text which is sent takes the next id; messages which are received only take one if they are requests, or
answered with an error. -/
theorem C123_taken (now : Nat) (path text : Str) (k : Nat) (type : Bytes) (b : Bridge) (ht : text ≠ []) (hk : 1 ≤ k) :
    (sendString now path text k type b).bridge.nextId = (generateId b).2.nextId ∧
    ∃ rest, (sendString now path text k type b).effs =
      .sysex (message 0x02 ((generateId b).1 ++ type ++ number2bytes (pieces text k) 3 ++ string2bytes path)) :: rest := by
  rw [sendString, if_neg ht, if_neg (by omega), Int.toNat_natCast]
  simp only [startSend, generateId]
  generalize (if b.nextId + 1 ≥ 16777216 then 0 else b.nextId + 1) = nx
  refine ⟨by simp [sendNextChunk, cleanup], ?_⟩
  exact ⟨_, by rw [startMessage, pieces_eq _ _ hk]⟩

/-- C123: the random number for the first id is between 0 and 16777216, both included (`getRandomInt`). With the last one,
the first two transmissions have the same id. -/
theorem C123_seed_witness : C123.idAt { nextId := 16777216 } 0 = C123.idAt { nextId := 16777216 } 1 := by decide +kernel

/-- C123: then, of two texts sent at once, the first one is lost, though all messages arrive. -/
theorem C123_lost_witness :
    let x := (Sys.start (fun _ => 16777216) fun _ => false).run C122.files
      ([.send true 0 (lit "/a") (lit "abc") 3 typeFile, .send true 0 (lit "/b") (lit "xyz") 3 typeFile] ++
        (List.replicate 8 [Event.deliver false 0, .deliver true 0]).flatten)
    x.toSide true = [] ∧ x.toSide false = [] ∧
    ¬ (received (x.told false)).Perm [(some (lit "/a"), lit "abc"), (some (lit "/b"), lit "xyz")] := by
  refine ⟨by decide +kernel, by decide +kernel, fun h => ?_⟩
  exact absurd h.length_eq (by decide +kernel)

end PySwitch.Props
