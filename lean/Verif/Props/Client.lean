import Verif.Lemmas.ClientStep
import Verif.Props.Mapping
/-
Properties C21 to C24: setting parameters, requests and their answers, termination of requests.
-/
namespace PySwitch.Props
open PySwitch.Wire PySwitch.Mapping PySwitch.Mapping.Spec PySwitch.Client PySwitch.Client.Spec

theorem setMsg_valued (msg : Msg) (hs : Settable msg) (v : Nat) (hv : v < 16384) :
    setMsg .numeric (some msg) v = .ok (some (valued v msg)) := by
  cases msg with
  | cc c x ch => rfl
  | pc p ch => rfl
  | sysex man d =>
    obtain ⟨h6, h8, h7⟩ := hs
    obtain ⟨data', h1, h2, h3, h4, h5⟩ := C16_round_trip man d h6 h8 h7 v hv
    rw [h1]
    have hd : data' = d.take 6 ++ [v / 128, v % 128] := by
      have h := h1
      simp only [setMsg] at h
      split at h
      · simp only [Except.ok.injEq, Option.some.injEq, Msg.sysex.injEq, true_and] at h
        rw [← h, padTo8_eq]
        match d, h6, h8 with
        | [a0, a1, a2, a3, a4, a5], _, _ => rfl
        | [a0, a1, a2, a3, a4, a5, a6], _, _ => rfl
        | [a0, a1, a2, a3, a4, a5, a6, a7], _, _ => rfl
      · simp at h
    rw [hd]
    rfl
  | unknown => exact absurd hs (by simp [Settable])
  | bad => exact absurd hs (by simp [Settable])

theorem setMany_valued (msgs : List Msg) (vs : List Nat) (hl : msgs.length ≤ vs.length)
    (hs : ∀ m ∈ msgs, Settable m) (hv : ∀ v ∈ vs, v < 16384) :
    setMany .numeric (msgs.map some) vs = .ok ((List.zipWith valued vs msgs).map some) := by
  induction msgs generalizing vs with
  | nil => simp [setMany]
  | cons m msgs ih =>
    cases vs with
    | nil => simp at hl
    | cons v vs =>
      simp only [List.map_cons, setMany, List.zipWith_cons_cons]
      rw [setMsg_valued m (hs m (by simp)) v (hv v (by simp))]
      rw [ih vs (by simpa using hl) (fun m hm => hs m (by simp [hm])) (fun v hv' => hv v (by simp [hv']))]

/-- C21: setting a parameter with one set message sends this message with the value, and nothing else. -/
theorem C21_single (st : State) (mid : Nat) (msg : Msg) (hset : (st.mappings mid).set = .one msg)
    (ht : (st.mappings mid).type = .numeric) (hs : Settable msg) (v : Nat) (hv : v < 16384) :
    ∃ st', set st mid (.one v) = .ok (st', [.send (valued v msg)]) := by
  simp only [Client.set, hset, MsgField.truthy, ht, setValue, setMsg_valued msg hs v hv]
  exact ⟨_, rfl⟩

/-- C21: setting a parameter with several set messages sends all of them in order, each with its value, and
nothing else. -/
theorem C21_many (st : State) (mid : Nat) (msgs : List Msg) (hset : (st.mappings mid).set = .many (msgs.map some))
    (ht : (st.mappings mid).type = .numeric) (hs : ∀ m ∈ msgs, Settable m) (vs : List Nat)
    (hl : msgs.length ≤ vs.length) (hv : ∀ v ∈ vs, v < 16384) :
    ∃ st', set st mid (.many vs) = .ok (st', (List.zipWith valued vs msgs).map .send) := by
  cases msgs with
  | nil => exact ⟨st, by simp [Client.set, hset, MsgField.truthy]⟩
  | cons m msgs =>
    simp only [Client.set, hset, MsgField.truthy, ht, setValue, setMany_valued (m :: msgs) vs hl hs hv]
    have hmap : ∀ l : List Msg, (l.map some).filterMap (fun m => m.map Eff.send) = l.map .send := by
      intro l
      induction l with
      | nil => rfl
      | cons x l ih => simp [ih]
    simp only [List.map_cons, List.isEmpty_cons, Bool.not_false, Bool.not_true, Bool.false_eq_true, if_false,
      sendField, hmap]
    exact ⟨_, rfl⟩

/-- C21: a parameter without set message: nothing happens. -/
theorem C21_none (st : State) (mid : Nat) (v : SetVal) (hset : messages (st.mappings mid).set = [])
    (hnone : ∀ ms, (st.mappings mid).set = .many ms → ms = []) : set st mid v = .ok (st, []) := by
  cases hs : (st.mappings mid).set with
  | none => simp [Client.set, hs, MsgField.truthy]
  | one m => rw [hs] at hset; simp [messages] at hset
  | many ms => simp [Client.set, hs, hnone ms hs, MsgField.truthy]

/-- C21: the state changes at most in the set messages of this parameter: no other parameter, no request and
no value is touched. -/
theorem C21_frame (st : State) (mid : Nat) (v : SetVal) (st' : State) (es : List Eff)
    (h : set st mid v = .ok (st', es)) :
    ∃ field, st' = { st with mappings := fun i =>
      if i = mid then { st.mappings i with set := field } else st.mappings i } := by
  obtain ⟨h1, -, f, hf⟩ := set_cases st mid v st' es h
  refine ⟨f, ?_⟩
  rw [h1]
  congr 1
  funext i
  exact hf i

/-- Two set messages: a CC and a 14 bit SysEx. -/
def exampleSet : State :=
  initial (fun _ => { set := .many [some (.cc 7 0 none), some (.sysex [0, 32, 51] [2, 127, 1, 0, 4, 1])] }) 2000
    (fun _ => true)

example : ∃ st', set exampleSet 3 (.many [100, 300])
    = .ok (st', [.send (.cc 7 100 none), .send (.sysex [0, 32, 51] [2, 127, 1, 0, 4, 1, 2, 44])]) := by
  have := C21_many exampleSet 3 [.cc 7 0 none, .sysex [0, 32, 51] [2, 127, 1, 0, 4, 1]] rfl rfl
    (by simp [Settable]) [100, 300] (by simp) (by simp)
  simpa [valued] using this

/-- C22: in every state which can be reached by any history of calls there is at most one pending entry for
each parameter, and no listener is registered twice there. -/
theorem C22_unique (P : Protocol) (f : Nat → Mapping) (L : Nat) (cb : Nat → Bool) (ops : List (Int × Op))
    (st : State) (ess : List (List Eff)) (h : run P (initial f L cb) ops = .ok (st, ess)) :
    (st.requests.map Req.mapping).Nodup ∧ ∀ r ∈ st.requests, ∃ ls, r.listeners = some ls ∧ ls.Nodup := by
  have hw := wf_run P ops _ st ess h (wf_initial f L cb)
  refine ⟨hw.nodup, fun r hr => ?_⟩
  obtain ⟨ls, hls⟩ := Option.isSome_iff_exists.1 (hw.isOpen r hr)
  exact ⟨ls, hls, hw.lnodup r hr ls hls⟩

theorem entry_eq (st : State) (mid : Nat) :
    entry st mid = match findReq mid st.requests with | none => none | some i => st.requests[i]? := by
  unfold entry
  generalize st.requests = rs
  induction rs with
  | nil => rfl
  | cons r rs ih =>
    by_cases h : r.mapping = mid
    · simp [findReq, h]
    · have : (r.mapping == mid) = false := by simpa using h
      simp only [List.find?_cons, this, findReq, h, if_false, ih]
      cases findReq mid rs <;> simp

theorem entry_some {st : State} {mid : Nat} {r : Req} (h : entry st mid = some r) :
    ∃ i, findReq mid st.requests = some i ∧ st.requests[i]? = some r ∧ r.mapping = mid := by
  rw [entry_eq] at h
  cases hf : findReq mid st.requests with
  | none => rw [hf] at h; simp at h
  | some i =>
    rw [hf] at h
    obtain ⟨r', h1, h2⟩ := findReq_some _ _ _ hf
    simp only at h
    rw [h] at h1
    simp only [Option.some.injEq] at h1
    subst h1
    exact ⟨i, rfl, h, h2⟩

theorem entry_none {st : State} {mid : Nat} (h : entry st mid = none) :
    findReq mid st.requests = none := by
  rw [entry_eq] at h
  cases hf : findReq mid st.requests with
  | none => rfl
  | some i =>
    rw [hf] at h
    obtain ⟨r', h1, h2⟩ := findReq_some _ _ _ hf
    simp only at h
    rw [h] at h1
    simp at h1

theorem sendField_messages (f : MsgField) : sendField f = (messages f).map .send := by
  cases f with
  | none => rfl
  | one m => rfl
  | many ms =>
    simp only [sendField, messages]
    induction ms with
    | nil => rfl
    | cons m ms ih => cases m <;> simp [ih]

/-- C22: a request for a parameter which is already pending sends nothing; the listener is added at the end of
the listeners of the pending entry if it is not there yet, and nothing else changes. -/
theorem C22_pending (P : Protocol) (f : Nat → Mapping) (L : Nat) (cb : Nat → Bool) (ops : List (Int × Op))
    (st : State) (ess : List (List Eff)) (h : run P (initial f L cb) ops = .ok (st, ess))
    (mid : Nat) (hq : (st.mappings mid).request.truthy) (hr : (st.mappings mid).response.truthy)
    (hd : (st.mappings mid).depends = none) (now : Int) (l : Nat) (r : Req) (hp : entry st mid = some r) :
    ∃ i ls, st.requests[i]? = some r ∧ r.listeners = some ls ∧
      step P st now (.request mid (some l)) = .ok (⟨st.mappings,
        st.requests.set i ⟨r.mapping, some (if .ext l ∈ ls then ls else ls ++ [.ext l]), r.lifetime⟩,
        st.deps, st.maxLifetime, st.cleanup, st.isCallback⟩, []) := by
  have hw := wf_run P ops _ st ess h (wf_initial f L cb)
  obtain ⟨i, h1, h2, h3⟩ := entry_some hp
  obtain ⟨ls, hls⟩ := Option.isSome_iff_exists.1 (hw.isOpen r (List.mem_of_getElem? h2))
  refine ⟨i, ls, h2, hls, ?_⟩
  simp only [step, request, hq, hr, hd, registerMapping, h1, h2, Option.map_some, addListener, hls]
  simp only [Bool.not_true, Bool.or_false, Bool.false_eq_true, if_false]
  by_cases hx : Lst.ext l ∈ ls
  · simp only [hx, if_true]
    rw [← hls]
  · simp only [hx, if_false]

/-- C22. A request for a parameter which cannot be requested, or whose answer could not be recognized, sends nothing and
leaves nothing behind. -/
theorem C22_not_requestable (P : Protocol) (st : State) (now : Int) (mid : Nat) (l : Option Nat)
    (h : ¬ ((st.mappings mid).request.truthy = true ∧ (st.mappings mid).response.truthy = true)) :
    step P st now (.request mid l) = .ok (st, []) := by
  have : (!(st.mappings mid).request.truthy || !(st.mappings mid).response.truthy) = true := by
    cases h1 : (st.mappings mid).request.truthy <;> cases h2 : (st.mappings mid).response.truthy <;> simp_all
  simp [step, request, this]

/-- C22: a request for a parameter which is not pending sends its request message(s) exactly once, and a new
entry with the listener is added. -/
theorem C22_new (P : Protocol) (st : State) (mid : Nat) (hq : (st.mappings mid).request.truthy)
    (hr : (st.mappings mid).response.truthy) (hd : (st.mappings mid).depends = none) (now : Int) (l : Nat)
    (hp : entry st mid = none) :
    ∃ r, r.mapping = mid ∧ r.listeners = some [.ext l] ∧
      step P st now (.request mid (some l)) = .ok ({ st with requests := st.requests ++ [r] },
        (messages (st.mappings mid).request).map .send) := by
  refine ⟨createRequest st now mid (some (.ext l)), rfl, rfl, ?_⟩
  simp only [step, request, hq, hr, hd, registerMapping, entry_none hp, sendField_messages, Option.map_some]
  rfl

/-- Reachable example: a mapping with a request, requested by two listeners. -/
def exampleReq : Nat → Mapping := fun _ =>
  { request := .one (.sysex [0, 32, 51] [2, 127, 65, 0, 4, 1]),
    response := .one (.sysex [0, 32, 51] [0, 0, 1, 0, 4, 1]) }

example : run plain (initial exampleReq 2000 (fun _ => true)) [(5, .request 1 (some 7)), (6, .request 1 (some 8)),
      (7, .request 1 (some 7))]
    = .ok (⟨exampleReq, [⟨1, some [.ext 7, .ext 8], some ⟨2000, 5⟩⟩], [], 2000, ⟨1000, 0⟩, fun _ => true⟩,
      [[.send (.sysex [0, 32, 51] [2, 127, 65, 0, 4, 1])], [], []]) := by rfl

theorem receive_at (st : State) (hw : WF st) (now : Int) (msg : Msg) (st' : State) (es : List Eff) (b : Bool)
    (h : receive st now (some msg) = .ok (st', es, b)) (r : Req) (hr : r ∈ st.requests)
    (hlife : ∀ p, r.lifetime = some p → now ≤ p.lastReset + p.interval) (ls : List Lst)
    (hls : r.listeners = some ls) :
    shape ((afterCleanup st now).1.mappings r.mapping) = shape (st.mappings r.mapping) ∧
    ((afterCleanup st now).1.mappings r.mapping).part1 = (st.mappings r.mapping).part1 ∧
    (∀ n, .terminated n r.mapping ∉ es) ∧
    match reaction ((afterCleanup st now).1.mappings r.mapping) msg with
    | .ignored => changes r.mapping es = []
    | .partly m' => st'.mappings r.mapping = m' ∧ changes r.mapping es = []
    | .fails _ => False
    | .done m' => st'.mappings r.mapping = m' ∧ b = true ∧
        (∃ ext, changes r.mapping es = (extOf (ls ++ ext)).map (fun n => (n, m'.value)) ∧
          (st.deps = [] → ext = []) ∧ (ls ++ ext).Nodup) ∧
        (r.lifetime.isSome → entry st' r.mapping = none) ∧
        (r.lifetime = none → (entry st' r.mapping).isSome) := by
  obtain ⟨a1, a2, a3, a4, a5, a6, a7⟩ := afterCleanup_spec st now hw.isOpen
  have hwc := wf_afterCleanup st now hw
  have hnex : expired now r = false := by
    simp only [expired]
    cases hl : r.lifetime with
    | none => rfl
    | some p =>
      have := hlife p hl
      simp only [PeriodCounter.exceeded]
      rw [if_neg (by omega)]
  have hmem : r ∈ (afterCleanup st now).1.requests := by
    rw [a1]
    split
    · exact List.mem_filter.2 ⟨hr, by simp [hnex]⟩
    · exact hr
  rcases receive_cases st now (some msg) st' es b h with ⟨hx, -⟩ | ⟨m, s, es', hm, hl, rfl, rfl⟩
  · simp at hx
  simp only [Option.some.injEq] at hm
  subst hm
  obtain ⟨j, hj⟩ := List.mem_iff_getElem?.1 hmem
  have hjl := (List.getElem?_eq_some_iff.1 hj).1
  have key := receiveLoop_at now msg _ _ 0 s es' b hl hwc.nodup hwc.lnodup j r (by omega) (by omega) hj ls hls
  have hev := (receiveLoop_evolves _ _ _ _ _ _ _ _ hl).1
  have hevs := (receiveLoop_evolves _ _ _ _ _ _ _ _ hl).2
  have huniq : ∀ x ∈ st.requests, x.mapping = r.mapping → x = r := by
    intro x hx hxm
    obtain ⟨i1, h1⟩ := List.mem_iff_getElem?.1 hx
    obtain ⟨i2, h2⟩ := List.mem_iff_getElem?.1 hr
    have := index_unique st.requests hw.nodup i1 i2 x r h1 h2 hxm
    subst this
    rw [h1] at h2
    simpa using h2
  have hsame : (afterCleanup st now).1.mappings r.mapping = st.mappings r.mapping := by
    rw [a7]
    rw [if_neg]
    simp only [Bool.and_eq_true, List.any_eq_true, not_and, not_exists]
    intro _ x hx h1 _ _
    have := huniq x hx (by simpa using h1.2)
    rw [this, hnex] at h1
    simp at h1
  have hch0 : changes r.mapping (afterCleanup st now).2 = [] := by
    rw [a6]
    split
    · simp only [changes, List.filterMap_eq_nil_iff, List.mem_flatMap, List.mem_map]
      rintro e ⟨x, -, n, -, rfl⟩
      rfl
    · rfl
  have hterm : ∀ n, Eff.terminated n r.mapping ∉ (afterCleanup st now).2 ++ es' := by
    intro n hin
    rcases List.mem_append.1 hin with hin | hin
    · rw [a6] at hin
      split at hin
      · simp only [List.mem_flatMap, List.mem_filter, List.mem_map, Eff.terminated.injEq] at hin
        obtain ⟨x, ⟨hx, hex⟩, k, -, -, hxm⟩ := hin
        rw [huniq x hx hxm, hnex] at hex
        simp at hex
      · simp at hin
    · rcases hevs _ hin with ⟨q, hq⟩ | ⟨_, _, _, hq⟩ <;> simp at hq
  refine ⟨by rw [hsame], by rw [hsame], hterm, ?_⟩
  rw [changes_append, hch0, List.nil_append]
  have hent : ∀ x, entry (cleanupRequests s) r.mapping = some x → x ∈ s.requests ∧ x.mapping = r.mapping ∧
      x.listeners.isSome := by
    intro x hx
    obtain ⟨i, -, h2, h3⟩ := entry_some hx
    have := List.mem_of_getElem? h2
    simp only [cleanupRequests, List.mem_filter] at this
    exact ⟨this.1, h3, this.2⟩
  cases hre : reaction ((afterCleanup st now).1.mappings r.mapping) msg with
  | ignored => rw [hre] at key; exact key.2
  | partly m' => rw [hre] at key; exact key
  | fails e => rw [hre] at key; exact key
  | done m' =>
    rw [hre] at key
    simp only at key ⊢
    obtain ⟨k1, k2, ⟨ext, k3, k4, k5⟩, r', k6, k7, k8, k9⟩ := key
    refine ⟨k1, k2, ⟨ext, k3, fun hd => k4 (by rw [a4, hd]), k5⟩, ?_, ?_⟩
    · intro hsome
      cases hx : entry (cleanupRequests s) r.mapping with
      | none => rfl
      | some x =>
        obtain ⟨x1, x2, x3⟩ := hent x hx
        obtain ⟨i, hi⟩ := List.mem_iff_getElem?.1 x1
        have := index_unique s.requests (hev.nodup hwc.nodup) i j x r' hi k6 (by rw [x2, k7])
        subst this
        rw [hi] at k6
        simp only [Option.some.injEq] at k6
        subst k6
        rw [x3] at k9
        rw [Option.isSome_iff_ne_none] at hsome
        exact absurd (Option.isNone_iff_eq_none.1 k9.symm) hsome
    · intro hnone
      cases hx : entry (cleanupRequests s) r.mapping with
      | some x => rfl
      | none =>
        have := entry_none hx
        rw [findReq_none] at this
        refine absurd (List.mem_map.2 ⟨r', ?_, k7⟩) this
        simp only [cleanupRequests, List.mem_filter]
        refine ⟨List.mem_of_getElem? k6, ?_⟩
        rw [k9, hnone]
        rfl

/-- C23: when an answer to a waiting parameter arrives, the parameter gets its value, and every listener of the
parameter is called exactly once, in the order of registration, with this value (`more` are listeners which have
been added during the call by a dependency: there are none without dependencies). One-shot requests are closed,
permanent registrations stay. -/
theorem C23_answer (P : Protocol) (f : Nat → Mapping) (L : Nat) (cb : Nat → Bool) (ops : List (Int × Op))
    (st : State) (ess : List (List Eff)) (h : run P (initial f L cb) ops = .ok (st, ess))
    (mid : Nat) (r : Req) (hent : entry st mid = some r) (now : Int)
    (hlife : ∀ p, r.lifetime = some p → now ≤ p.lastReset + p.interval)
    (hplain : (st.mappings mid).twoPart = false) (t : Msg) (ht : (st.mappings mid).response = .one t)
    (hg : GoodTemplate t) (msg : Msg) (ha : Answers msg t) (st' : State) (es : List Eff) (b : Bool)
    (hrec : receive st now (some msg) = .ok (st', es, b)) :
    b = true ∧ ∃ ls, r.listeners = some ls ∧ ∃ v, (st'.mappings mid).value = some v ∧
      ((st.mappings mid).type = .numeric → ∃ n, v = .num n ∧ Carries msg n) ∧
      (∃ more, changes mid es = (extOf (ls ++ more)).map (fun l => (l, some v)) ∧ (ls ++ more).Nodup ∧
        (st.deps = [] → more = [])) ∧
      (r.lifetime.isSome → entry st' mid = none) ∧ (r.lifetime = none → (entry st' mid).isSome) := by
  have hw := wf_run P ops _ st ess h (wf_initial f L cb)
  obtain ⟨i, -, h2, hm⟩ := entry_some hent
  subst hm
  have hrm := List.mem_of_getElem? h2
  obtain ⟨ls, hls⟩ := Option.isSome_iff_exists.1 (hw.isOpen r hrm)
  obtain ⟨hsh, -, -, key⟩ := receive_at st hw now msg st' es b hrec r hrm hlife ls hls
  generalize hm' : (afterCleanup st now).1.mappings r.mapping = m at hsh key
  have e1 : m.twoPart = false := (keeps_shape (P := P) (op := .connectionLost) (mid := 0) (.refl _ _ _ _) hsh).twoPart.trans hplain
  have e2 : m.response = .one t := (keeps_shape (P := P) (op := .connectionLost) (mid := 0) (.refl _ _ _ _) hsh).response.trans ht
  have e3 : m.type = (st.mappings r.mapping).type :=
    (keeps_shape (P := P) (op := .connectionLost) (mid := 0) (.refl _ _ _ _) hsh).type
  obtain ⟨v, hv⟩ := (C17_attribution m e1 t e2 hg msg).1 ha
  have hre : reaction m msg = .done { m with value := some v } := by
    simp only [reaction, e2, Response.truthy, hv, resultFinished, e1]
    rfl
  rw [hre] at key
  simp only at key
  obtain ⟨k1, k2, ⟨ext, k3, k4, k5⟩, k6, k7⟩ := key
  refine ⟨k2, ls, hls, v, by rw [k1], ?_, ⟨ext, k3, k5, k4⟩, k6, k7⟩
  intro hn
  obtain ⟨n, hc, hn'⟩ := C17_value m e1 (e3.trans hn) t e2 hg msg ha
  rw [hv] at hn'
  simp only [Except.ok.injEq, Prod.mk.injEq, true_and] at hn'
  have : v = .num n := by
    have := congrArg Mapping.value hn'
    simpa using this
  exact ⟨n, this, hc⟩

/-- C23: a message which does not answer the parameter does not notify anybody about it. -/
theorem C23_other (P : Protocol) (f : Nat → Mapping) (L : Nat) (cb : Nat → Bool) (ops : List (Int × Op))
    (st : State) (ess : List (List Eff)) (h : run P (initial f L cb) ops = .ok (st, ess))
    (mid : Nat) (r : Req) (hent : entry st mid = some r) (now : Int)
    (hlife : ∀ p, r.lifetime = some p → now ≤ p.lastReset + p.interval)
    (hplain : (st.mappings mid).twoPart = false) (t : Msg) (ht : (st.mappings mid).response = .one t)
    (hg : GoodTemplate t) (msg : Msg) (ha : ¬ Answers msg t) (st' : State) (es : List Eff) (b : Bool)
    (hrec : receive st now (some msg) = .ok (st', es, b)) : changes mid es = [] := by
  have hw := wf_run P ops _ st ess h (wf_initial f L cb)
  obtain ⟨i, -, h2, hm⟩ := entry_some hent
  subst hm
  have hrm := List.mem_of_getElem? h2
  obtain ⟨ls, hls⟩ := Option.isSome_iff_exists.1 (hw.isOpen r hrm)
  obtain ⟨hsh, -, -, key⟩ := receive_at st hw now msg st' es b hrec r hrm hlife ls hls
  generalize hm' : (afterCleanup st now).1.mappings r.mapping = m at hsh key
  have e1 : m.twoPart = false := (keeps_shape (P := P) (op := .connectionLost) (mid := 0) (.refl _ _ _ _) hsh).twoPart.trans hplain
  have e2 : m.response = .one t := (keeps_shape (P := P) (op := .connectionLost) (mid := 0) (.refl _ _ _ _) hsh).response.trans ht
  have hv := (C17_attribution m e1 t e2 hg msg).2 ha
  have hre : reaction m msg = .partly m := by
    simp only [reaction, e2, Response.truthy, hv]
    rfl
  rw [hre] at key
  exact key.2

/-- C23 for two-part parameters (bank CC and program change): the bank CC alone notifies nobody; the program
change after it notifies every listener once with the combined value. -/
theorem C23_two_part (P : Protocol) (f : Nat → Mapping) (L : Nat) (cb : Nat → Bool) (ops : List (Int × Op))
    (st : State) (ess : List (List Eff)) (h : run P (initial f L cb) ops = .ok (st, ess))
    (mid : Nat) (r : Req) (hent : entry st mid = some r) (now : Int)
    (hlife : ∀ p, r.lifetime = some p → now ≤ p.lastReset + p.interval)
    (htwo : (st.mappings mid).twoPart = true) (cc cv pv : Nat) (cch pch : Option Nat)
    (ht : (st.mappings mid).response = .two (some (.cc cc cv cch)) (some (.pc pv pch)))
    (msg : Msg) (st' : State) (es : List Eff) (b : Bool)
    (hrec : receive st now (some msg) = .ok (st', es, b)) :
    (∀ v ch, msg = .cc cc v ch → changes mid es = [] ∧ (st'.mappings mid).part1 = some v) ∧
    (∀ p ch v, msg = .pc p ch → (st.mappings mid).part1 = some v →
      b = true ∧ ∃ ls, r.listeners = some ls ∧ (st'.mappings mid).value = some (.num (128 * v + p)) ∧
      (∃ more, changes mid es = (extOf (ls ++ more)).map (fun l => (l, some (.num (128 * v + p)))) ∧
        (ls ++ more).Nodup ∧ (st.deps = [] → more = []))) ∧
    (∀ p ch, msg = .pc p ch → (st.mappings mid).part1 = none → changes mid es = []) := by
  have hw := wf_run P ops _ st ess h (wf_initial f L cb)
  obtain ⟨i, -, h2, hm⟩ := entry_some hent
  subst hm
  have hrm := List.mem_of_getElem? h2
  obtain ⟨ls, hls⟩ := Option.isSome_iff_exists.1 (hw.isOpen r hrm)
  obtain ⟨hsh, hpart, -, key⟩ := receive_at st hw now msg st' es b hrec r hrm hlife ls hls
  generalize hm' : (afterCleanup st now).1.mappings r.mapping = m at hsh hpart key
  have e1 : m.twoPart = true := (keeps_shape (P := P) (op := .connectionLost) (mid := 0) (.refl _ _ _ _) hsh).twoPart.trans htwo
  have e2 : m.response = _ := (keeps_shape (P := P) (op := .connectionLost) (mid := 0) (.refl _ _ _ _) hsh).response.trans ht
  refine ⟨?_, ?_, ?_⟩
  · rintro v ch rfl
    have hre : reaction m (.cc cc v ch) = .partly { m with part1 := some v } := by
      simp [reaction, e2, Response.truthy, parse, e1, parseTwoPart, parseAgainst, resultFinished]
    rw [hre] at key
    exact ⟨key.2, by rw [key.1]⟩
  · rintro p ch v rfl hp
    rw [hp] at hpart
    have hre : reaction m (.pc p ch) = .done { m with value := some (.num (128 * v + p)), part1 := none } := by
      simp [reaction, e2, Response.truthy, parse, e1, parseTwoPart, parseAgainst, resultFinished, hpart]
    rw [hre] at key
    simp only at key
    obtain ⟨k1, k2, ⟨ext, k3, k4, k5⟩, k6, k7⟩ := key
    exact ⟨k2, ls, hls, by rw [k1], ext, k3, k5, k4⟩
  · rintro p ch rfl hp
    rw [hp] at hpart
    have hre : reaction m (.pc p ch) = .partly m := by
      simp [reaction, e2, Response.truthy, parse, e1, parseTwoPart, parseAgainst, hpart]
    rw [hre] at key
    exact key.2

example : ∃ st es, run plain (initial exampleReq 2000 (fun _ => true)) [(5, .request 1 (some 7)),
      (6, .request 1 (some 8)), (30, .receive (some (.sysex [0, 32, 51] [0, 0, 1, 0, 4, 1, 3, 5])))] = .ok (st, es) ∧
    st.requests = [] ∧
    es.getLast? = some [.changed 7 1 (some (.num 389)), .changed 8 1 (some (.num 389))] := ⟨_, _, rfl, rfl, rfl⟩

/-- C24: the life time of every pending one-shot request is the configured one, counted from the call in which
the request has been created: in every reachable state the entries either come from the state before the last
call unchanged or have been created in this call. -/
theorem C24_created (P : Protocol) (f : Nat → Mapping) (L : Nat) (cb : Nat → Bool) (ops : List (Int × Op))
    (st : State) (ess : List (List Eff)) (h : run P (initial f L cb) ops = .ok (st, ess))
    (now : Int) (op : Op) (st' : State) (es : List Eff) (hs : step P st now op = .ok (st', es)) (r' : Req)
    (hr : r' ∈ st'.requests) (p : PeriodCounter) (hp : r'.lifetime = some p) :
    p.interval = L ∧ ((∃ r ∈ st.requests, r.mapping = r'.mapping ∧ r.lifetime = some p) ∨ p.lastReset = now) := by
  have hw := wf_run P ops _ st ess h (wf_initial f L cb)
  have hmax : st.maxLifetime = L ∧ ∀ r ∈ st.requests, ∀ p, r.lifetime = some p → p.interval = L := by
    refine run_induction' P (fun st => st.maxLifetime = L ∧ ∀ r ∈ st.requests, ∀ p, r.lifetime = some p → p.interval = L)
      ?_ ops _ st ess (wf_initial f L cb) h (by simp [initial])
    intro now st op st' es hw hi hs
    obtain ⟨hrel, hm, -⟩ := step_rel P st now op st' es hs hw
    refine ⟨hm.trans hi.1, ?_⟩
    intro r' hr' p hp
    rcases hrel.back r' hr' with ⟨r, h1, -, h2, -⟩ | h1 | h1
    · exact hi.2 r h1 p (by rw [← h2]; exact hp)
    · rw [h1] at hp; simp at hp
    · rw [h1] at hp
      simp only [Option.some.injEq] at hp
      rw [← hp, hi.1]
  obtain ⟨hrel, -⟩ := step_rel P st now op st' es hs hw
  rcases hrel.back r' hr with ⟨r, h1, h2, h3, -⟩ | h1 | h1
  · exact ⟨hmax.2 r h1 p (by rw [← h3]; exact hp), .inl ⟨r, h1, h2.symm, by rw [← h3]; exact hp⟩⟩
  · rw [h1] at hp; simp at hp
  · rw [h1] at hp
    simp only [Option.some.injEq] at hp
    rw [← hp]
    exact ⟨by simp [hmax.1], .inr rfl⟩

/-- C24: as long as its life time has not passed, a request is not terminated (by no call but the loss of the
connection of a bidirectional parameter). -/
theorem C24_not_early (P : Protocol) (f : Nat → Mapping) (L : Nat) (cb : Nat → Bool) (ops : List (Int × Op))
    (st : State) (ess : List (List Eff)) (h : run P (initial f L cb) ops = .ok (st, ess)) (r : Req)
    (hr : r ∈ st.requests) (p : PeriodCounter) (hp : r.lifetime = some p) (now : Int)
    (hnow : now ≤ p.lastReset + L) (msg : Option Msg) (st' : State) (es : List Eff) (b : Bool)
    (hrec : receive st now msg = .ok (st', es, b)) (l : Nat) : .terminated l r.mapping ∉ es := by
  have hw := wf_run P ops _ st ess h (wf_initial f L cb)
  have hpi : p.interval = L := by
    have hmax : ∀ r ∈ st.requests, ∀ p, r.lifetime = some p → p.interval = L := by
      refine (run_induction' P (fun st => st.maxLifetime = L ∧ ∀ r ∈ st.requests, ∀ p, r.lifetime = some p → p.interval = L)
        ?_ ops _ st ess (wf_initial f L cb) h (by simp [initial])).2
      intro now st op st' es hw hi hs
      obtain ⟨hrel, hm, -⟩ := step_rel P st now op st' es hs hw
      refine ⟨hm.trans hi.1, ?_⟩
      intro r' hr' p hp
      rcases hrel.back r' hr' with ⟨r, h1, -, h2, -⟩ | h1 | h1
      · exact hi.2 r h1 p (by rw [← h2]; exact hp)
      · rw [h1] at hp; simp at hp
      · rw [h1] at hp
        simp only [Option.some.injEq] at hp
        rw [← hp, hi.1]
    exact hmax r hr p hp
  have hnex : expired now r = false := by
    simp only [expired, hp, PeriodCounter.exceeded]
    rw [if_neg (by omega)]
  have huniq : ∀ x ∈ st.requests, x.mapping = r.mapping → x = r := by
    intro x hx hxm
    obtain ⟨i1, h1⟩ := List.mem_iff_getElem?.1 hx
    obtain ⟨i2, h2⟩ := List.mem_iff_getElem?.1 hr
    have := index_unique st.requests hw.nodup i1 i2 x r h1 h2 hxm
    subst this
    rw [h1] at h2
    simpa using h2
  have hc : Eff.terminated l r.mapping ∉ (afterCleanup st now).2 := by
    rw [(afterCleanup_spec st now hw.isOpen).2.2.2.2.2.1]
    split
    · simp only [List.mem_flatMap, List.mem_filter, List.mem_map, Eff.terminated.injEq, not_exists, not_and]
      rintro x ⟨hx, hex⟩ k - - hxm
      rw [huniq x hx hxm, hnex] at hex
      simp at hex
    · simp
  rcases receive_cases st now msg st' es b hrec with ⟨-, -, rfl, -⟩ | ⟨m, s, es', -, hl, -, rfl⟩
  · exact hc
  · intro hin
    rcases List.mem_append.1 hin with hin | hin
    · exact hc hin
    · rcases (receiveLoop_evolves _ _ _ _ _ _ _ _ hl).2 _ hin with ⟨q, hq⟩ | ⟨_, _, _, hq⟩ <;> simp at hq

/-- C24: a one-shot request which is still pending is terminated by the first poll later than one and a half
life times after its creation: all listeners are informed exactly once, and the entry is removed; if one of
them is a callback (all listeners using values are), the value of the parameter is reset before messages are
processed. -/
theorem C24_deadline (P : Protocol) (f : Nat → Mapping) (L : Nat) (cb : Nat → Bool) (ops : List (Int × Op))
    (st : State) (ess : List (List Eff)) (h : run P (initial f L cb) ops = .ok (st, ess)) (hmono : Monotone ops)
    (r : Req) (hr : r ∈ st.requests) (p : PeriodCounter) (hp : r.lifetime = some p) (now : Int)
    (hnow : p.lastReset + L + L / 2 < now) (msg : Option Msg) (st' : State)
    (es : List Eff) (b : Bool) (hrec : receive st now msg = .ok (st', es, b)) :
    ∃ ls, r.listeners = some ls ∧ (∀ l, es.count (.terminated l r.mapping) = if .ext l ∈ ls then 1 else 0) ∧
      (msg = none → entry st' r.mapping = none ∧ ((extOf ls).any cb → (st'.mappings r.mapping).value = none)) ∧
      (∀ r' ∈ st'.requests, r'.mapping = r.mapping → r'.lifetime = none ∨ r'.lifetime = some ⟨L, now⟩) := by
  obtain ⟨ht, hw⟩ := timed_run P f L cb ops st ess h hmono
  obtain ⟨hi1, hi2, hi3⟩ := ht.life r hr p hp
  obtain ⟨ls, hls⟩ := Option.isSome_iff_exists.1 (hw.isOpen r hr)
  have hex : (st.cleanup.exceeded now).1 = true := by
    simp only [PeriodCounter.exceeded]
    rw [if_pos]
    rw [ht.interval]
    omega
  have hexp : expired now r = true := by
    simp only [expired, hp, PeriodCounter.exceeded]
    rw [if_pos (by omega)]
  obtain ⟨a1, a2, a3, a4, a5, a6, a7⟩ := afterCleanup_spec st now hw.isOpen
  have hcb : st.isCallback = cb := by
    refine run_induction' P (fun st => st.isCallback = cb) ?_ ops _ st ess (wf_initial f L cb) h rfl
    intro now st op st' es hw hi hs
    rw [(step_rel P st now op st' es hs hw).2.2.1, hi]
  have huniq : ∀ x ∈ st.requests, x.mapping = r.mapping → x = r := by
    intro x hx hxm
    obtain ⟨i1, h1⟩ := List.mem_iff_getElem?.1 hx
    obtain ⟨i2, h2⟩ := List.mem_iff_getElem?.1 hr
    have := index_unique st.requests hw.nodup i1 i2 x r h1 h2 hxm
    subst this
    rw [h1] at h2
    simpa using h2
  rw [if_pos hex] at a1 a6
  have hgone : r.mapping ∉ (afterCleanup st now).1.requests.map Req.mapping := by
    rw [a1]
    simp only [List.mem_map, List.mem_filter, not_exists, not_and]
    rintro x ⟨hx, hx'⟩ hxm
    rw [huniq x hx hxm, hexp] at hx'
    simp at hx'
  have hcount : ∀ l, (afterCleanup st now).2.count (.terminated l r.mapping) = if .ext l ∈ ls then 1 else 0 := by
    intro l
    rw [a6]
    have hext : (extOf ls).Nodup ∧ ∀ l, l ∈ extOf ls ↔ Lst.ext l ∈ ls := by
      have hnd := hw.lnodup r hr ls hls
      constructor
      · clear hls
        induction ls with
        | nil => simp [extOf]
        | cons x ls ih =>
          rw [List.nodup_cons] at hnd
          cases x with
          | dep o => simpa [extOf] using ih hnd.2
          | ext n =>
            have hi := ih hnd.2
            simp only [extOf, List.filterMap_cons] at hi ⊢
            rw [List.nodup_cons]
            refine ⟨?_, hi⟩
            simp only [List.mem_filterMap, not_exists, not_and]
            rintro x hx
            cases x with
            | dep o => simp
            | ext m =>
              simp only [Option.some.injEq]
              rintro rfl
              exact hnd.1 hx
      · intro l
        simp only [extOf, List.mem_filterMap]
        constructor
        · rintro ⟨x, hx, h⟩
          cases x with
          | dep o => simp at h
          | ext m =>
            simp only [Option.some.injEq] at h
            subst h
            exact hx
        · intro h
          exact ⟨_, h, rfl⟩
    obtain ⟨pre, post, hsplit⟩ := List.append_of_mem hr
    have hne : ∀ x ∈ pre ++ post, x.mapping ≠ r.mapping := by
      intro x hx
      have hnd := hw.nodup
      rw [hsplit, List.map_append, List.map_cons, List.nodup_append, List.nodup_cons] at hnd
      rcases List.mem_append.1 hx with hx | hx
      · exact hnd.2.2 x.mapping (List.mem_map.2 ⟨x, hx, rfl⟩) r.mapping (by simp)
      · intro he
        exact hnd.2.1.1 (List.mem_map.2 ⟨x, hx, he⟩)
    have hzero : ∀ l' : List Req, (∀ x ∈ l', x.mapping ≠ r.mapping) →
        ((l'.filter (expired now)).flatMap (fun r => (extOf (r.listeners.getD [])).map
          (fun n => Eff.terminated n r.mapping))).count (.terminated l r.mapping) = 0 := by
      intro l' hl'
      rw [List.count_eq_zero]
      simp only [List.mem_flatMap, List.mem_filter, List.mem_map, Eff.terminated.injEq, not_exists, not_and]
      rintro x ⟨hx, -⟩ k - - hxm
      exact hl' x hx hxm
    rw [hsplit, List.filter_append, List.flatMap_append, List.count_append, List.filter_cons_of_pos hexp,
      List.flatMap_cons, List.count_append, hzero pre (fun x hx => hne x (by simp [hx])),
      hzero post (fun x hx => hne x (by simp [hx])), hls]
    simp only [Option.getD_some, Nat.zero_add, Nat.add_zero]
    have hinj : ((extOf ls).map (fun n => Eff.terminated n r.mapping)).count (.terminated l r.mapping)
        = (extOf ls).count l := by
      induction extOf ls with
      | nil => rfl
      | cons x xs ih => simp [List.count_cons, ih]
    rw [hinj]
    by_cases hm : Lst.ext l ∈ ls
    · rw [if_pos hm]
      rw [List.Nodup.count hext.1, if_pos ((hext.2 l).2 hm)]
    · rw [if_neg hm, List.count_eq_zero]
      exact fun hx => hm ((hext.2 l).1 hx)
  refine ⟨ls, hls, ?_, ?_, ?_⟩
  · intro l
    rcases receive_cases st now msg st' es b hrec with ⟨-, -, rfl, -⟩ | ⟨m, s, es', -, hl, -, rfl⟩
    · exact hcount l
    · rw [List.count_append, hcount l]
      have : es'.count (.terminated l r.mapping) = 0 := by
        rw [List.count_eq_zero]
        intro hin
        rcases (receiveLoop_evolves _ _ _ _ _ _ _ _ hl).2 _ hin with ⟨q, hq⟩ | ⟨_, _, _, hq⟩ <;> simp at hq
      rw [this]
      rfl
  · rintro rfl
    rcases receive_cases st now none st' es b hrec with ⟨-, rfl, -⟩ | ⟨m, s, es', hm, -⟩
    · constructor
      · rw [entry_eq, (findReq_none _ _).2 hgone]
      · intro hc
        rw [a7, if_pos]
        simp only [hex, Bool.true_and, List.any_eq_true]
        refine ⟨r, hr, ?_⟩
        simp only [hexp, beq_self_eq_true, Bool.and_self, Bool.true_and, hls, Option.getD_some, hcb]
        exact hc
    · simp at hm
  · intro r' hr' hm
    rcases receive_cases st now msg st' es b hrec with ⟨-, rfl, -⟩ | ⟨m, s, es', -, hl, rfl, -⟩
    · exact absurd (List.mem_map.2 ⟨r', hr', hm⟩) hgone
    · have hrel := rel_of_evolves (wf_afterCleanup st now hw).isOpen (receiveLoop_evolves _ _ _ _ _ _ _ _ hl).1
      rw [a3, ht.max] at hrel
      rcases hrel.back r' hr' with ⟨x, hx, hxm, -⟩ | h1
      · exact absurd (List.mem_map.2 ⟨x, hx, by rw [← hxm, hm]⟩) hgone
      · exact h1

/-- C24: a permanent registration is never removed by any call, none of its listeners is lost, and none is
informed of a termination (but for the loss of the connection, see C29). -/
theorem C24_permanent (P : Protocol) (f : Nat → Mapping) (L : Nat) (cb : Nat → Bool) (ops : List (Int × Op))
    (st : State) (ess : List (List Eff)) (h : run P (initial f L cb) ops = .ok (st, ess)) (r : Req)
    (hr : r ∈ st.requests) (hp : r.lifetime = none) (ls : List Lst) (hls : r.listeners = some ls)
    (now : Int) (op : Op) (st' : State) (es : List Eff) (hs : step P st now op = .ok (st', es)) :
    (∃ r' ∈ st'.requests, r'.mapping = r.mapping ∧ r'.lifetime = none ∧ ∃ more, r'.listeners = some (ls ++ more)) ∧
    (∀ msg, op = .receive msg → ∀ l, .terminated l r.mapping ∉ es) := by
  have hw := wf_run P ops _ st ess h (wf_initial f L cb)
  obtain ⟨hrel, -⟩ := step_rel P st now op st' es hs hw
  obtain ⟨r', h1, h2, h3, ext, h4⟩ := hrel.permanent r hr hp
  refine ⟨⟨r', h1, h2, h3, ext, by rw [h4, hls]; rfl⟩, ?_⟩
  rintro msg rfl l
  have huniq : ∀ x ∈ st.requests, x.mapping = r.mapping → x = r := by
    intro x hx hxm
    obtain ⟨i1, h1⟩ := List.mem_iff_getElem?.1 hx
    obtain ⟨i2, h2⟩ := List.mem_iff_getElem?.1 hr
    have := index_unique st.requests hw.nodup i1 i2 x r h1 h2 hxm
    subst this
    rw [h1] at h2
    simpa using h2
  have hc : Eff.terminated l r.mapping ∉ (afterCleanup st now).2 := by
    rw [(afterCleanup_spec st now hw.isOpen).2.2.2.2.2.1]
    split
    · simp only [List.mem_flatMap, List.mem_filter, List.mem_map, Eff.terminated.injEq, not_exists, not_and]
      rintro x ⟨hx, hex⟩ k - - hxm
      rw [huniq x hx hxm] at hex
      simp [expired, hp] at hex
    · simp
  simp only [step] at hs
  cases hrec : receive st now msg with
  | error e => rw [hrec] at hs; simp at hs
  | ok q =>
    rw [hrec] at hs
    simp only [Except.ok.injEq, Prod.mk.injEq] at hs
    obtain ⟨rfl, rfl⟩ := hs
    rcases receive_cases st now msg q.1 q.2.1 q.2.2 hrec with ⟨-, -, h5, -⟩ | ⟨m, s, es', -, hl, -, h5⟩
    · rw [h5]; exact hc
    · rw [h5]
      intro hin
      rcases List.mem_append.1 hin with hin | hin
      · exact hc hin
      · rcases (receiveLoop_evolves _ _ _ _ _ _ _ _ hl).2 _ hin with ⟨q, hq⟩ | ⟨_, _, _, hq⟩ <;> simp at hq

/-- A request without answer (created at 5, life time 2000): nothing at 2005, terminated at 3006. -/
example : ∃ st es, run plain (initial exampleReq 2000 (fun _ => true)) [(5, .request 1 (some 7)),
      (1004, .receive none), (2005, .receive none), (3006, .receive none)] = .ok (st, es) ∧
    st.requests = [] ∧ es.drop 1 = [[], [], [.terminated 7 1]] := ⟨_, _, rfl, rfl, rfl⟩

end PySwitch.Props
