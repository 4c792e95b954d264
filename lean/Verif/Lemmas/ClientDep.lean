import Verif.Lemmas.ClientStep
namespace PySwitch.Client
open PySwitch.Wire PySwitch.Mapping PySwitch.Client.Spec

theorem messages_sendField (f : MsgField) (q : Msg) : Eff.send q ∈ sendField f ↔ q ∈ messages f := by
  cases f with
  | none => simp [sendField, messages]
  | one m => simp [sendField, messages]
  | many ms =>
    simp only [sendField, messages, List.mem_filterMap]
    constructor
    · rintro ⟨a, ha, h⟩
      cases a with
      | none => simp at h
      | some m =>
        simp at h
        exact ⟨some m, ha, by simp [h]⟩
    · rintro ⟨a, ha, h⟩
      cases a with
      | none => simp at h
      | some m =>
        simp at h
        exact ⟨some m, ha, by simp [h]⟩

/-! ### Which messages are sent -/

/-- All messages sent are request messages of mappings. -/
def SendsFrom (st : State) (es : List Eff) : Prop :=
  ∀ q, Eff.send q ∈ es → ∃ o, q ∈ messages (st.mappings o).request

theorem shape_request {m m' : Mapping} (h : shape m' = shape m) : m'.request = m.request := by
  rcases m with ⟨⟩
  rcases m' with ⟨⟩
  simp only [shape, Mapping.mk.injEq] at h
  simp_all

theorem SendsFrom.mono {now : Int} {st st' : State} {es : List Eff} (h : SendsFrom st' es) (he : Evolves now st st') :
    SendsFrom st es := by
  intro q hq
  obtain ⟨o, ho⟩ := h q hq
  exact ⟨o, by rw [← shape_request (he.shape o)]; exact ho⟩

theorem SendsFrom.append {st : State} {a b : List Eff} (ha : SendsFrom st a) (hb : SendsFrom st b) :
    SendsFrom st (a ++ b) := by
  intro q hq
  rcases List.mem_append.1 hq with h | h
  · exact ha q h
  · exact hb q h

theorem SendsFrom.nil (st : State) : SendsFrom st [] := by intro q hq; simp at hq

theorem registerMapping_sends (st : State) (now : Int) (mid : Nat) (l : Option Lst) (send : Bool)
    (st' : State) (es : List Eff) (h : registerMapping st now mid l send = .ok (st', es)) : SendsFrom st es := by
  rcases registerMapping_cases st now mid l send st' es h with ⟨-, -, rfl⟩ | ⟨-, rfl, -⟩
  · cases send with
    | false => exact .nil _
    | true => exact fun q hq => ⟨mid, (messages_sendField _ _).1 hq⟩
  · exact .nil _

theorem depChanged_sends (st : State) (now : Int) (orig src : Nat) (st' : State) (es : List Eff)
    (h : depChanged st now orig src = .ok (st', es)) : SendsFrom st es := by
  unfold depChanged at h
  split at h
  · simp only [Except.ok.injEq, Prod.mk.injEq] at h
    rw [← h.2]; exact .nil _
  · split at h
    · have := registerMapping_sends _ _ _ _ _ _ _ h
      exact this
    · simp only [Except.ok.injEq, Prod.mk.injEq] at h
      rw [← h.2]; exact .nil _

theorem notify_sends (now : Int) (src : Nat) (ls : List Lst) (st st' : State) (es : List Eff)
    (h : notify st now src ls = .ok (st', es)) : SendsFrom st es := by
  induction ls generalizing st st' es with
  | nil =>
    simp only [notify, Except.ok.injEq, Prod.mk.injEq] at h
    rw [← h.2]; exact .nil _
  | cons l ls ih =>
    cases l with
    | ext n =>
      simp only [notify] at h
      cases hn : notify st now src ls with
      | error e => rw [hn] at h; simp at h
      | ok p =>
        rw [hn] at h
        simp only [Except.ok.injEq, Prod.mk.injEq] at h
        obtain ⟨rfl, rfl⟩ := h
        intro q hq
        simp only [List.mem_cons, reduceCtorEq, false_or] at hq
        exact ih st p.1 p.2 hn q hq
    | dep o =>
      simp only [notify] at h
      cases hd : depChanged st now o src with
      | error e => rw [hd] at h; simp at h
      | ok p =>
        rw [hd] at h
        simp only at h
        cases hn : notify p.1 now src ls with
        | error e => rw [hn] at h; simp at h
        | ok q =>
          rw [hn] at h
          simp only [Except.ok.injEq, Prod.mk.injEq] at h
          obtain ⟨rfl, rfl⟩ := h
          exact (depChanged_sends st now o src p.1 p.2 hd).append
            ((ih p.1 q.1 q.2 hn).mono (depChanged_evolves st now o src p.1 p.2 hd).1)

theorem parseReq_sends (st : State) (now : Int) (i : Nat) (msg : Msg) (st' : State) (es : List Eff) (b : Bool)
    (r : Req) (hr : st.requests[i]? = some r) (h : parseReq st now i msg = .ok (st', es, b)) : SendsFrom st es := by
  rcases parseReq_cases st now i msg st' es b r hr h with
    ⟨-, rfl, rfl, -⟩ | ⟨-, rfl, rfl, -⟩ | ⟨ls, m', -, -, hsh, rfl, rfl, -⟩ | ⟨ls, m', st'', -, -, hsh, hn, rfl, -⟩
  · exact .nil _
  · exact .nil _
  · exact .nil _
  · exact (notify_sends _ _ _ _ _ _ hn).mono (evolves_setMapping now st _ _ hsh)

theorem receiveLoop_sends (now : Int) (msg : Msg) (fuel : Nat) (st : State) (i : Nat) (st' : State)
    (es : List Eff) (b : Bool) (h : receiveLoop now msg fuel st i = .ok (st', es, b)) : SendsFrom st es := by
  induction fuel generalizing st i st' es b with
  | zero =>
    simp only [receiveLoop, Except.ok.injEq, Prod.mk.injEq] at h
    rw [← h.2.1]; exact .nil _
  | succ fuel ih =>
    simp only [receiveLoop] at h
    by_cases hi : i < st.requests.length
    · rw [if_pos hi] at h
      have hr : st.requests[i]? = some st.requests[i] := List.getElem?_eq_getElem hi
      cases hp : parseReq st now i msg with
      | error e => rw [hp] at h; simp at h
      | ok p =>
        obtain ⟨st₁, es₁, b₁⟩ := p
        rw [hp] at h
        simp only at h
        cases hl : receiveLoop now msg fuel st₁ (i + 1) with
        | error e => rw [hl] at h; simp at h
        | ok q =>
          obtain ⟨st₂, es₂, b₂⟩ := q
          rw [hl] at h
          simp only [Except.ok.injEq, Prod.mk.injEq] at h
          obtain ⟨rfl, rfl, rfl⟩ := h
          exact (parseReq_sends st now i msg st₁ es₁ b₁ _ hr hp).append
            ((ih st₁ (i + 1) st₂ es₂ b₂ hl).mono (parseReq_evolves st now i msg st₁ es₁ b₁ _ hr hp).1)
    · rw [if_neg hi] at h
      simp only [Except.ok.injEq, Prod.mk.injEq] at h
      rw [← h.2.1]; exact .nil _

theorem connectionLost_sends (P : Protocol) (st : State) (q : Msg) : Eff.send q ∉ (connectionLost P st).2 := by
  unfold connectionLost
  have : ∀ (rs : List Req) (acc : State × List Eff), Eff.send q ∉ acc.2 →
      Eff.send q ∉ (rs.foldl (fun acc r =>
        if P.isBidirectional r.mapping then
          ((notifyTerminated acc.1 r).1, acc.2 ++ (notifyTerminated acc.1 r).2)
        else acc) acc).2 := by
    intro rs
    induction rs with
    | nil => intro acc h; exact h
    | cons r rs ih =>
      intro acc h
      simp only [List.foldl_cons]
      apply ih
      split
      · simp only [List.mem_append, not_or]
        refine ⟨h, ?_⟩
        simp only [notifyTerminated]
        cases r.listeners with
        | none => simp
        | some ls => simp
      · exact h
  exact this st.requests (st, []) (by simp)

/-- Every call but `set` sends only request messages of mappings. -/
theorem step_sends (P : Protocol) (st : State) (now : Int) (op : Op) (st' : State) (es : List Eff) (hw : WF st)
    (h : step P st now op = .ok (st', es)) (hset : ∀ mid v, op ≠ .set mid v) : SendsFrom st es := by
  cases op with
  | register mid l =>
    obtain ⟨s₀, hb, -, -, ⟨rfl, rfl, -⟩ | ⟨-, -, hr⟩⟩ := register_cases P st now mid l st' es h
    · exact .nil _
    · rcases registerMapping_cases _ _ _ _ _ _ _ hr with ⟨-, -, rfl⟩ | ⟨-, rfl, -⟩ <;> exact .nil _
  | request mid l =>
    simp only [step, request] at h
    split at h
    · simp only [Except.ok.injEq, Prod.mk.injEq] at h
      rw [← h.2]; exact .nil _
    · split at h
      · have := registerMapping_sends _ _ _ _ _ _ _ h
        intro q hq
        obtain ⟨o, ho⟩ := this q hq
        refine ⟨o, ?_⟩
        split at ho <;> exact ho
      · exact registerMapping_sends _ _ _ _ _ _ _ h
  | set mid v => exact absurd rfl (hset mid v)
  | receive msg =>
    simp only [step] at h
    cases hr : receive st now msg with
    | error e => rw [hr] at h; simp at h
    | ok p =>
      rw [hr] at h
      simp only [Except.ok.injEq, Prod.mk.injEq] at h
      obtain ⟨rfl, rfl⟩ := h
      have hc : SendsFrom st (afterCleanup st now).2 := by
        rw [(afterCleanup_spec st now hw.isOpen).2.2.2.2.2.1]
        intro q hq
        split at hq
        · simp at hq
        · simp at hq
      rcases receive_cases st now msg p.1 p.2.1 p.2.2 hr with ⟨-, -, h1, -⟩ | ⟨m, s, es', -, h1, -, h2⟩
      · rw [h1]; exact hc
      · rw [h2]
        refine hc.append ?_
        intro q hq
        obtain ⟨o, ho⟩ := receiveLoop_sends _ _ _ _ _ _ _ _ h1 q hq
        refine ⟨o, ?_⟩
        rcases (afterCleanup_keeps P (.receive msg) st now hw.isOpen o).request with ⟨hk, -⟩ | ⟨-, -, -, l, hk⟩
        · rw [← hk]; exact ho
        · simp at hk
  | connectionLost =>
    simp only [step, Except.ok.injEq] at h
    have := connectionLost_sends P st
    rw [h] at this
    intro q hq
    exact absurd hq (this q)

/-! ### Dependencies -/

/-- The mapping `orig` is waited for. -/
def Pend (st : State) (orig : Nat) : Prop := orig ∈ st.requests.map Req.mapping

/-- The dependency listener of a mapping. -/
def dep (st : State) (orig : Nat) : Option Dep := st.deps.find? (fun d => d.orig == orig)

/-- The entry of `orig` contains the listener. -/
def Has (orig : Nat) (l : Option Nat) (st : State) : Prop :=
  ∃ r ∈ st.requests, r.mapping = orig ∧ ∀ ls, r.listeners = some ls → ∀ n, l = some n → .ext n ∈ ls

theorem has_evolves {now : Int} {orig : Nat} {l : Option Nat} {st st' : State} (h : Has orig l st)
    (he : Evolves now st st') : Has orig l st' := by
  obtain ⟨r, hr, hm, hl⟩ := h
  obtain ⟨i, hi⟩ := List.mem_iff_getElem?.1 hr
  obtain ⟨r', h1, h2⟩ := he.old i r hi
  refine ⟨r', List.mem_of_getElem? h1, by rw [h2.mapping, hm], ?_⟩
  intro ls hls n hn
  rcases h2.listeners with ⟨h3, -⟩ | ⟨ext, h3⟩
  · rw [h3] at hls; simp at hls
  · cases hrl : r.listeners with
    | none => rw [h3, hrl] at hls; simp at hls
    | some ls₀ =>
      rw [h3, hrl] at hls
      simp at hls
      subst hls
      exact List.mem_append_left _ (hl ls₀ hrl n hn)

/-- A part of a call which does not concern the dependent mapping `orig` with the request message `q`. -/
structure Quiet (orig : Nat) (q : Msg) (st st' : State) (es : List Eff) : Prop where
  dep : dep st' orig = dep st orig
  count : es.count (.send q) = 0
  pend : Pend st' orig ↔ Pend st orig
  has : ∀ l, Has orig l st → Has orig l st'

theorem Quiet.refl (orig : Nat) (q : Msg) (st : State) : Quiet orig q st st [] := ⟨rfl, rfl, Iff.rfl, fun _ h => h⟩

theorem Quiet.trans {orig : Nat} {q : Msg} {a b c : State} {es es' : List Eff} (h : Quiet orig q a b es)
    (h' : Quiet orig q b c es') : Quiet orig q a c (es ++ es') :=
  ⟨h'.dep.trans h.dep, by rw [List.count_append, h.count, h'.count], h'.pend.trans h.pend, fun l x => h'.has l (h.has l x)⟩

/-- A part of a call in which the trigger of `orig` is seen with the value `v`. -/
structure Trig (orig : Nat) (q : Msg) (d : Dep) (v : Option Val) (st st' : State) (es : List Eff) : Prop where
  dep : dep st' orig = some { d with last := v }
  same : v = d.last → es.count (.send q) = 0 ∧ (Pend st' orig ↔ Pend st orig)
  new : v ≠ d.last → ¬ Pend st orig → es.count (.send q) = 1 ∧ Pend st' orig
  again : v ≠ d.last → Pend st orig → es.count (.send q) = 0 ∧ Pend st' orig
  has : v ≠ d.last → Has orig d.listener st'

theorem Quiet.trig {orig : Nat} {q : Msg} {d : Dep} {v : Option Val} {a b c : State} {es es' : List Eff}
    (h : Quiet orig q a b es) (h' : Trig orig q d v b c es') : Trig orig q d v a c (es ++ es') := by
  refine ⟨h'.dep, ?_, ?_, ?_, h'.has⟩
  · intro hv
    rw [List.count_append, h.count, (h'.same hv).1]
    exact ⟨rfl, (h'.same hv).2.trans h.pend⟩
  · intro hv hp
    have := h'.new hv (fun x => hp (h.pend.1 x))
    rw [List.count_append, h.count, this.1]
    exact ⟨rfl, this.2⟩
  · intro hv hp
    have := h'.again hv (h.pend.2 hp)
    rw [List.count_append, h.count, this.1]
    exact ⟨rfl, this.2⟩

theorem Trig.quiet {orig : Nat} {q : Msg} {d : Dep} {v : Option Val} {a b c : State} {es es' : List Eff}
    (h : Trig orig q d v a b es) (h' : Quiet orig q b c es') : Trig orig q d v a c (es ++ es') := by
  refine ⟨h'.dep.trans h.dep, ?_, ?_, ?_, fun hv => h'.has _ (h.has hv)⟩
  · intro hv
    rw [List.count_append, h'.count, (h.same hv).1]
    exact ⟨rfl, h'.pend.trans (h.same hv).2⟩
  · intro hv hp
    rw [List.count_append, h'.count, (h.new hv hp).1]
    exact ⟨rfl, h'.pend.2 (h.new hv hp).2⟩
  · intro hv hp
    rw [List.count_append, h'.count, (h.again hv hp).1]
    exact ⟨rfl, h'.pend.2 (h.again hv hp).2⟩

/-- `q` is the request message of `orig` only. -/
structure Own (st : State) (orig : Nat) (q : Msg) : Prop where
  own : (st.mappings orig).request = .one q
  other : ∀ o, o ≠ orig → q ∉ messages (st.mappings o).request

theorem Own.mono {now : Int} {st st' : State} {orig : Nat} {q : Msg} (h : Own st orig q) (he : Evolves now st st') :
    Own st' orig q :=
  ⟨by rw [shape_request (he.shape orig)]; exact h.own,
   fun o ho => by rw [shape_request (he.shape o)]; exact h.other o ho⟩

theorem registerMapping_quiet (orig : Nat) (q : Msg) (st : State) (now : Int) (mid : Nat) (l : Option Lst) (send : Bool)
    (st' : State) (es : List Eff) (h : registerMapping st now mid l send = .ok (st', es)) (ho : Own st orig q)
    (hm : mid ≠ orig) : Quiet orig q st st' es := by
  have hhas : ∀ l, Has orig l st → Has orig l st' :=
    fun l hl => has_evolves hl (registerMapping_evolves _ _ _ _ _ _ _ h).1
  rcases registerMapping_cases st now mid l send st' es h with ⟨h1, rfl, rfl⟩ | ⟨h1, rfl, rfl | ⟨i, r, x, ls, hr, hmm, hl, hls, hx, rfl⟩⟩
  · refine ⟨rfl, ?_, ?_, hhas⟩
    · rw [List.count_eq_zero]
      cases send with
      | false => simp
      | true =>
        simp only [if_true]
        rw [messages_sendField]
        exact ho.other mid hm
    · simp only [Pend, List.map_append, List.mem_append, List.map_cons, List.map_nil, List.mem_singleton, createRequest]
      constructor
      · rintro (h | h)
        · exact h
        · exact absurd h.symm hm
      · exact .inl
  · exact .refl _ _ _
  · refine ⟨rfl, rfl, ?_, hhas⟩
    have e : ((st.requests.set i { r with listeners := some (ls ++ [x]) }).map Req.mapping)
        = st.requests.map Req.mapping := map_mapping_set _ _ _ _ hr rfl
    simp only [Pend]
    rw [e]

theorem registerMapping_has (st : State) (now : Int) (mid : Nat) (l : Option Nat) (send : Bool)
    (st' : State) (es : List Eff) (h : registerMapping st now mid (l.map .ext) send = .ok (st', es)) :
    Has mid l st' := by
  unfold registerMapping at h
  cases hf : findReq mid st.requests with
  | none =>
    rw [hf] at h
    simp only [Except.ok.injEq, Prod.mk.injEq] at h
    rw [← h.1]
    refine ⟨createRequest st now mid (l.map .ext), by simp, rfl, ?_⟩
    intro ls hls n hn
    simp only [createRequest, Option.some.injEq] at hls
    subst hls hn
    simp
  | some i =>
    obtain ⟨r, h1, h2⟩ := findReq_some _ _ _ hf
    rw [hf] at h
    simp only [h1] at h
    cases l with
    | none =>
      simp only [Option.map_none, Except.ok.injEq, Prod.mk.injEq] at h
      rw [← h.1]
      exact ⟨r, List.mem_of_getElem? h1, h2, by simp⟩
    | some n =>
      simp only [Option.map_some, addListener] at h
      cases hl : r.listeners with
      | none => rw [hl] at h; simp at h
      | some ls =>
        rw [hl] at h
        simp only [Except.ok.injEq, Prod.mk.injEq] at h
        rw [← h.1]
        have hlt := (List.getElem?_eq_some_iff.1 h1).1
        by_cases hx : Lst.ext n ∈ ls
        · simp only [hx, if_true]
          refine ⟨r, List.mem_set hlt r, h2, ?_⟩
          intro ls' hls' k hk
          rw [hl] at hls'
          simp only [Option.some.injEq] at hls' hk
          subst hls' hk
          exact hx
        · simp only [hx, if_false]
          refine ⟨_, List.mem_set hlt _, h2, ?_⟩
          intro ls' hls' k hk
          simp only [Option.some.injEq] at hls' hk
          subst hls' hk
          simp

theorem find_dep_update (deps : List Dep) (o : Nat) (v : Option Val) (orig : Nat) :
    (deps.map (fun d => if d.orig = o then { d with last := v } else d)).find? (fun d => d.orig == orig) =
      (deps.find? (fun d => d.orig == orig)).map (fun d => if d.orig = o then { d with last := v } else d) := by
  induction deps with
  | nil => rfl
  | cons d ds ih =>
    simp only [List.map_cons, List.find?_cons]
    by_cases h : d.orig = o
    · simp only [h, if_true]
      by_cases h' : o = orig
      · simp [h', h]
      · have : (o == orig) = false := by simpa using h'
        simp only [this, ih]
    · simp only [h, if_false]
      by_cases h' : d.orig = orig
      · simp [h']
        intro hx
        exact absurd hx (h' ▸ h)
      · have : (d.orig == orig) = false := by simpa using h'
        simp only [this, ih]

theorem depChanged_quiet (orig : Nat) (q : Msg) (st : State) (now : Int) (o src : Nat) (st' : State) (es : List Eff)
    (h : depChanged st now o src = .ok (st', es)) (hown : Own st orig q) (ho : o ≠ orig) : Quiet orig q st st' es := by
  unfold depChanged at h
  split at h
  · simp only [Except.ok.injEq, Prod.mk.injEq] at h
    obtain ⟨rfl, rfl⟩ := h
    exact .refl _ _ _
  · split at h
    · have := registerMapping_quiet orig q _ _ _ _ _ _ _ h ⟨hown.own, hown.other⟩ ho
      refine ⟨?_, this.count, this.pend, this.has⟩
      rw [this.dep]
      simp only [dep]
      rw [find_dep_update]
      cases hf : st.deps.find? (fun d => d.orig == orig) with
      | none => rfl
      | some d =>
        have := List.find?_some hf
        simp at this
        simp [this, Ne.symm ho]
    · simp only [Except.ok.injEq, Prod.mk.injEq] at h
      obtain ⟨rfl, rfl⟩ := h
      exact .refl _ _ _

theorem depChanged_trig (orig : Nat) (q : Msg) (st : State) (now : Int) (src : Nat) (st' : State) (es : List Eff)
    (h : depChanged st now orig src = .ok (st', es)) (hown : Own st orig q) (d : Dep) (hd : dep st orig = some d) :
    Trig orig q d (st.mappings src).value st st' es := by
  unfold depChanged at h
  rw [show st.deps.find? (fun d => d.orig == orig) = some d from hd] at h
  have hdo : d.orig = orig := by
    have := List.find?_some (show st.deps.find? (fun d => d.orig == orig) = some d from hd)
    simpa using this
  simp only at h
  split at h
  · rename_i hne
    have hdep : dep st' orig = some { d with last := (st.mappings src).value } := by
      have hdeps : st'.deps = st.deps.map (fun d => if d.orig = orig then { d with last := (st.mappings src).value } else d) := by
        rcases registerMapping_cases _ _ _ _ _ _ _ h with ⟨-, rfl, -⟩ | ⟨-, -, rfl | ⟨i, r, x, ls, -, -, -, -, -, rfl⟩⟩ <;> rfl
      simp only [dep, hdeps]
      rw [find_dep_update]
      rw [show st.deps.find? (fun d => d.orig == orig) = some d from hd]
      simp [hdo]
    refine ⟨hdep, fun h' => absurd h' hne, ?_, ?_, fun _ => registerMapping_has _ _ _ _ _ _ _ h⟩
    · intro _ hp
      rcases registerMapping_cases _ _ _ _ _ _ _ h with ⟨h1, rfl, rfl⟩ | ⟨h1, -⟩
      · simp only [hown.own, sendField, if_true, Pend, List.map_append, List.mem_append]
        exact ⟨by simp, .inr (by simp [createRequest])⟩
      · exact absurd h1 hp
    · intro _ hp
      rcases registerMapping_cases _ _ _ _ _ _ _ h with ⟨h1, -⟩ | ⟨h1, rfl, h2⟩
      · exact absurd hp h1
      · refine ⟨rfl, ?_⟩
        have := (registerMapping_evolves _ _ _ _ _ _ _ h).1
        exact this.mem_mapping hp
  · rename_i hne
    simp only [Except.ok.injEq, Prod.mk.injEq] at h
    obtain ⟨rfl, rfl⟩ := h
    simp only [ne_eq, Classical.not_not] at hne
    refine ⟨?_, fun _ => ⟨rfl, Iff.rfl⟩, fun h' => absurd hne h', fun h' => absurd hne h', fun h' => absurd hne h'⟩
    rw [hd, hne]

theorem changed_quiet (orig : Nat) (q : Msg) (st : State) (n m : Nat) (v : Option Val) :
    Quiet orig q st st [.changed n m v] := ⟨rfl, by simp, Iff.rfl, fun _ h => h⟩

theorem notify_quiet (orig : Nat) (q : Msg) (now : Int) (src : Nat) (ls : List Lst) (st st' : State) (es : List Eff)
    (h : notify st now src ls = .ok (st', es)) (hown : Own st orig q) (hls : .dep orig ∉ ls) :
    Quiet orig q st st' es := by
  induction ls generalizing st st' es with
  | nil =>
    simp only [notify, Except.ok.injEq, Prod.mk.injEq] at h
    obtain ⟨rfl, rfl⟩ := h
    exact .refl _ _ _
  | cons l ls ih =>
    simp only [List.mem_cons, not_or] at hls
    cases l with
    | ext n =>
      simp only [notify] at h
      cases hn : notify st now src ls with
      | error e => rw [hn] at h; simp at h
      | ok p =>
        rw [hn] at h
        simp only [Except.ok.injEq, Prod.mk.injEq] at h
        obtain ⟨rfl, rfl⟩ := h
        exact (changed_quiet orig q st n src _).trans (ih st p.1 p.2 hn hown hls.2)
    | dep o =>
      simp only [notify] at h
      cases hd : depChanged st now o src with
      | error e => rw [hd] at h; simp at h
      | ok p =>
        rw [hd] at h
        simp only at h
        cases hn : notify p.1 now src ls with
        | error e => rw [hn] at h; simp at h
        | ok r =>
          rw [hn] at h
          simp only [Except.ok.injEq, Prod.mk.injEq] at h
          obtain ⟨rfl, rfl⟩ := h
          have hoo : o ≠ orig := fun h => hls.1 (by rw [h])
          exact (depChanged_quiet orig q st now o src p.1 p.2 hd hown hoo).trans
            (ih p.1 r.1 r.2 hn (hown.mono (depChanged_evolves st now o src p.1 p.2 hd).1) hls.2)

theorem notify_trig (orig : Nat) (q : Msg) (now : Int) (src : Nat) (ls : List Lst) (st st' : State) (es : List Eff)
    (h : notify st now src ls = .ok (st', es)) (hown : Own st orig q) (hls : .dep orig ∈ ls) (hn : ls.Nodup)
    (d : Dep) (hd : dep st orig = some d) : Trig orig q d (st.mappings src).value st st' es := by
  induction ls generalizing st st' es with
  | nil => simp at hls
  | cons l ls ih =>
    rw [List.nodup_cons] at hn
    cases l with
    | ext n =>
      simp only [List.mem_cons, reduceCtorEq, false_or] at hls
      simp only [notify] at h
      cases hnt : notify st now src ls with
      | error e => rw [hnt] at h; simp at h
      | ok p =>
        rw [hnt] at h
        simp only [Except.ok.injEq, Prod.mk.injEq] at h
        obtain ⟨rfl, rfl⟩ := h
        exact (changed_quiet orig q st n src _).trig (ih st p.1 p.2 hnt hown hls hn.2 hd)
    | dep o =>
      simp only [notify] at h
      cases hdc : depChanged st now o src with
      | error e => rw [hdc] at h; simp at h
      | ok p =>
        rw [hdc] at h
        simp only at h
        cases hnt : notify p.1 now src ls with
        | error e => rw [hnt] at h; simp at h
        | ok r =>
          rw [hnt] at h
          simp only [Except.ok.injEq, Prod.mk.injEq] at h
          obtain ⟨rfl, rfl⟩ := h
          have hev := depChanged_evolves st now o src p.1 p.2 hdc
          by_cases hoo : o = orig
          · subst hoo
            exact (depChanged_trig o q st now src p.1 p.2 hdc hown d hd).quiet
              (notify_quiet o q now src ls p.1 r.1 r.2 hnt (hown.mono hev.1) hn.1)
          · have hq := depChanged_quiet orig q st now o src p.1 p.2 hdc hown hoo
            rcases List.mem_cons.1 hls with h | h
            · simp only [Lst.dep.injEq] at h
              exact absurd h.symm hoo
            · have := ih p.1 r.1 r.2 hnt (hown.mono hev.1) h hn.2 (by rw [hq.dep, hd])
              rw [hev.2.1] at this
              exact hq.trig this

theorem closeReq_quiet (orig : Nat) (q : Msg) (st : State) (i : Nat) : Quiet orig q st (closeReq st i) [] := by
  unfold closeReq
  split
  · exact .refl _ _ _
  · rename_i r hr
    split
    · rename_i hlife
      refine ⟨rfl, rfl, ?_, fun l hl => has_evolves hl
        (evolves_set 0 st i r { r with listeners := none } hr ⟨rfl, rfl, .inl ⟨rfl, hlife⟩⟩ (by simp))⟩
      have e : ((st.requests.set i { r with listeners := none }).map Req.mapping)
        = st.requests.map Req.mapping := map_mapping_set _ _ _ _ hr rfl
      simp only [Pend]
      rw [e]
    · exact .refl _ _ _

theorem setMapping_quiet (orig : Nat) (q : Msg) (st : State) (mid : Nat) (m : Mapping) :
    Quiet orig q st (st.setMapping mid m) [] := ⟨rfl, rfl, Iff.rfl, fun _ h => h⟩

/-- The dependency listener of `orig` is attached to the entry of `src` only. -/
def At (src orig : Nat) (st : State) : Prop :=
  ∀ r ∈ st.requests, ∀ ls, r.listeners = some ls → .dep orig ∈ ls → r.mapping = src

theorem registerMapping_at (src orig : Nat) (st : State) (now : Int) (mid : Nat) (l : Option Lst) (send : Bool)
    (st' : State) (es : List Eff) (h : registerMapping st now mid l send = .ok (st', es)) (ha : At src orig st)
    (hl : l = some (.dep orig) → mid = src) : At src orig st' := by
  rcases registerMapping_cases st now mid l send st' es h with ⟨h1, rfl, rfl⟩ | ⟨h1, rfl, rfl | ⟨i, r, x, ls, hr, hmm, hx, hls, hnx, rfl⟩⟩
  · intro r hr ls hls hd
    simp only [List.mem_append, List.mem_singleton] at hr
    rcases hr with hr | rfl
    · exact ha r hr ls hls hd
    · simp only [createRequest, Option.some.injEq] at hls
      subst hls
      rw [Option.mem_toList] at hd
      exact hl hd
  · exact ha
  · intro y hy ls' hls' hd
    rcases List.mem_or_eq_of_mem_set hy with h1 | h1
    · exact ha y h1 ls' hls' hd
    · subst h1
      simp only [Option.some.injEq] at hls'
      subst hls'
      rcases List.mem_append.1 hd with hd | hd
      · exact ha r (List.mem_of_getElem? hr) ls hls hd
      · simp only [List.mem_singleton] at hd
        exact hmm.trans (hl (by rw [hx, hd]))

theorem depChanged_at (src orig : Nat) (st : State) (now : Int) (o s : Nat) (st' : State) (es : List Eff)
    (h : depChanged st now o s = .ok (st', es)) (ha : At src orig st) : At src orig st' := by
  unfold depChanged at h
  split at h
  · simp only [Except.ok.injEq, Prod.mk.injEq] at h
    rw [← h.1]; exact ha
  · split at h
    · refine registerMapping_at _ _ _ _ _ _ _ _ _ h ha ?_
      intro hx
      rename_i d _ _
      cases hl : d.listener <;> rw [hl] at hx <;> simp at hx
    · simp only [Except.ok.injEq, Prod.mk.injEq] at h
      rw [← h.1]; exact ha

theorem notify_at (src orig : Nat) (now : Int) (s : Nat) (ls : List Lst) (st st' : State) (es : List Eff)
    (h : notify st now s ls = .ok (st', es)) (ha : At src orig st) : At src orig st' := by
  induction ls generalizing st st' es with
  | nil =>
    simp only [notify, Except.ok.injEq, Prod.mk.injEq] at h
    rw [← h.1]; exact ha
  | cons l ls ih =>
    cases l with
    | ext n =>
      simp only [notify] at h
      cases hn : notify st now s ls with
      | error e => rw [hn] at h; simp at h
      | ok p =>
        rw [hn] at h
        simp only [Except.ok.injEq, Prod.mk.injEq] at h
        obtain ⟨rfl, rfl⟩ := h
        exact ih st p.1 p.2 hn ha
    | dep o =>
      simp only [notify] at h
      cases hd : depChanged st now o s with
      | error e => rw [hd] at h; simp at h
      | ok p =>
        rw [hd] at h
        simp only at h
        cases hn : notify p.1 now s ls with
        | error e => rw [hn] at h; simp at h
        | ok r =>
          rw [hn] at h
          simp only [Except.ok.injEq, Prod.mk.injEq] at h
          obtain ⟨rfl, rfl⟩ := h
          exact ih p.1 r.1 r.2 hn (depChanged_at src orig st now o s p.1 p.2 hd ha)

theorem closeReq_at (src orig : Nat) (st : State) (i : Nat) (ha : At src orig st) : At src orig (closeReq st i) := by
  unfold closeReq
  split
  · exact ha
  · split
    · intro y hy ls hls hd
      rcases List.mem_or_eq_of_mem_set hy with h1 | h1
      · exact ha y h1 ls hls hd
      · subst h1; simp at hls
    · exact ha

theorem parseReq_at (src orig : Nat) (st : State) (now : Int) (i : Nat) (msg : Msg) (st' : State) (es : List Eff)
    (b : Bool) (r : Req) (hr : st.requests[i]? = some r) (h : parseReq st now i msg = .ok (st', es, b))
    (ha : At src orig st) : At src orig st' := by
  rcases parseReq_cases st now i msg st' es b r hr h with
    ⟨-, rfl, rfl, -⟩ | ⟨-, rfl, rfl, -⟩ | ⟨ls, m', -, -, hsh, rfl, rfl, -⟩ | ⟨ls, m', st'', -, -, hsh, hn, rfl, -⟩
  · exact ha
  · exact ha
  · exact ha
  · exact closeReq_at _ _ _ _ (notify_at src orig _ _ _ _ _ _ hn ha)

/-- A call of `parse` which does not finish the trigger. -/
theorem parseReq_quiet (src orig : Nat) (q : Msg) (st : State) (now : Int) (i : Nat) (msg : Msg) (st' : State)
    (es : List Eff) (b : Bool) (r : Req) (hr : st.requests[i]? = some r) (h : parseReq st now i msg = .ok (st', es, b))
    (ha : At src orig st) (hown : Own st orig q)
    (hq : r.mapping ≠ src ∨ ∀ m', reaction (st.mappings src) msg ≠ .done m') : Quiet orig q st st' es := by
  rcases parseReq_cases st now i msg st' es b r hr h with
    ⟨-, rfl, rfl, -⟩ | ⟨-, rfl, rfl, -⟩ | ⟨ls, m', -, -, hsh, rfl, rfl, -⟩ | ⟨ls, m', st'', hls, hre, hsh, hn, rfl, -⟩
  · exact .refl _ _ _
  · exact .refl _ _ _
  · exact setMapping_quiet _ _ _ _ _
  · have hne : r.mapping ≠ src := by
      rcases hq with h | h
      · exact h
      · rintro rfl
        exact h m' hre
    have := notify_quiet orig q now r.mapping ls _ _ _ hn (hown.mono (evolves_setMapping now st _ _ hsh)) (by
      intro hd
      exact hne (ha r (List.mem_of_getElem? hr) ls hls hd))
    have := ((setMapping_quiet orig q st r.mapping m').trans this).trans (closeReq_quiet orig q st'' i)
    simpa using this

/-- The receive loop if the trigger does not come any more. -/
theorem receiveLoop_quiet (src orig : Nat) (q : Msg) (now : Int) (msg : Msg) (fuel : Nat) (st : State) (i : Nat)
    (st' : State) (es : List Eff) (b : Bool) (h : receiveLoop now msg fuel st i = .ok (st', es, b))
    (ha : At src orig st) (hown : Own st orig q) (hn : (st.requests.map Req.mapping).Nodup)
    (hq : (∃ (j : Nat) (r : Req), j < i ∧ st.requests[j]? = some r ∧ r.mapping = src) ∨
      ∀ m', reaction (st.mappings src) msg ≠ .done m') :
    Quiet orig q st st' es := by
  induction fuel generalizing st i st' es b with
  | zero =>
    simp only [receiveLoop, Except.ok.injEq, Prod.mk.injEq] at h
    obtain ⟨rfl, rfl, -⟩ := h
    exact .refl _ _ _
  | succ fuel ih =>
    simp only [receiveLoop] at h
    by_cases hi : i < st.requests.length
    · rw [if_pos hi] at h
      have hr : st.requests[i]? = some st.requests[i] := List.getElem?_eq_getElem hi
      cases hp : parseReq st now i msg with
      | error e => rw [hp] at h; simp at h
      | ok p =>
        obtain ⟨st₁, es₁, b₁⟩ := p
        rw [hp] at h
        simp only at h
        cases hl : receiveLoop now msg fuel st₁ (i + 1) with
        | error e => rw [hl] at h; simp at h
        | ok q' =>
          obtain ⟨st₂, es₂, b₂⟩ := q'
          rw [hl] at h
          simp only [Except.ok.injEq, Prod.mk.injEq] at h
          obtain ⟨rfl, rfl, rfl⟩ := h
          obtain ⟨p1, p2, p3⟩ := parseReq_evolves st now i msg st₁ es₁ b₁ _ hr hp
          have hq1 : st.requests[i].mapping ≠ src ∨ ∀ m', reaction (st.mappings src) msg ≠ .done m' := by
            rcases hq with ⟨j, r, h1, h2, h3⟩ | h
            · refine .inl ?_
              intro he
              have := index_unique st.requests hn i j _ _ hr h2 (by rw [he, h3])
              omega
            · exact .inr h
          refine (parseReq_quiet src orig q st now i msg st₁ es₁ b₁ _ hr hp ha hown hq1).trans ?_
          refine ih st₁ (i + 1) st₂ es₂ b₂ hl (parseReq_at src orig st now i msg st₁ es₁ b₁ _ hr hp ha)
            (hown.mono p1) (p1.nodup hn) ?_
          by_cases hx : ∃ (j : Nat) (r : Req), j < i + 1 ∧ st.requests[j]? = some r ∧ r.mapping = src
          · obtain ⟨j, r, h1, h2, h3⟩ := hx
            obtain ⟨r', h4, h5⟩ := p1.old j r h2
            exact .inl ⟨j, r', h1, h4, by rw [h5.mapping, h3]⟩
          · refine .inr ?_
            have hne : src ≠ st.requests[i].mapping := by
              intro he
              exact hx ⟨i, _, by omega, hr, he.symm⟩
            rcases hq with ⟨j, r, h1, h2, h3⟩ | h
            · exact absurd ⟨j, r, by omega, h2, h3⟩ hx
            · rw [(p2 src hne).1]; exact h
    · rw [if_neg hi] at h
      simp only [Except.ok.injEq, Prod.mk.injEq] at h
      obtain ⟨rfl, rfl, -⟩ := h
      exact .refl _ _ _

/-- The receive loop with the trigger at position `j`. -/
theorem receiveLoop_trig (src orig : Nat) (q : Msg) (now : Int) (msg : Msg) (fuel : Nat) (st : State) (i : Nat)
    (st' : State) (es : List Eff) (b : Bool) (h : receiveLoop now msg fuel st i = .ok (st', es, b))
    (ha : At src orig st) (hown : Own st orig q) (hn : (st.requests.map Req.mapping).Nodup)
    (hln : ListenersNodup st.requests) (j : Nat) (r : Req) (hj : i ≤ j) (hf : j < i + fuel)
    (hr : st.requests[j]? = some r) (hm : r.mapping = src) (ls : List Lst) (hls : r.listeners = some ls)
    (hd : .dep orig ∈ ls) (d : Dep) (hdep : dep st orig = some d) (m' : Mapping)
    (hre : reaction (st.mappings src) msg = .done m') : Trig orig q d m'.value st st' es := by
  induction fuel generalizing st i st' es b r ls with
  | zero => omega
  | succ fuel ih =>
    have hjl := (List.getElem?_eq_some_iff.1 hr).1
    simp only [receiveLoop] at h
    have hi : i < st.requests.length := by omega
    rw [if_pos hi] at h
    have hri : st.requests[i]? = some st.requests[i] := List.getElem?_eq_getElem hi
    cases hp : parseReq st now i msg with
    | error e => rw [hp] at h; simp at h
    | ok p =>
      obtain ⟨st₁, es₁, b₁⟩ := p
      rw [hp] at h
      simp only at h
      cases hl : receiveLoop now msg fuel st₁ (i + 1) with
      | error e => rw [hl] at h; simp at h
      | ok q' =>
        obtain ⟨st₂, es₂, b₂⟩ := q'
        rw [hl] at h
        simp only [Except.ok.injEq, Prod.mk.injEq] at h
        obtain ⟨rfl, rfl, rfl⟩ := h
        obtain ⟨p1, p2, p3⟩ := parseReq_evolves st now i msg st₁ es₁ b₁ _ hri hp
        have hat := parseReq_at src orig st now i msg st₁ es₁ b₁ _ hri hp ha
        by_cases hij : i = j
        · subst hij
          obtain ⟨r₁, hr₁, he₁⟩ := p1.old i r hr
          have hrest := receiveLoop_quiet src orig q now msg fuel st₁ (i + 1) st₂ es₂ b₂ hl hat (hown.mono p1)
            (p1.nodup hn) (.inl ⟨i, r₁, by omega, hr₁, by rw [he₁.mapping, hm]⟩)
          refine Trig.quiet ?_ hrest
          rcases parseReq_cases st now i msg st₁ es₁ b₁ r hr hp with
            ⟨h1, -⟩ | ⟨h1, -⟩ | ⟨ls', m₁, -, h1, -⟩ | ⟨ls', m₁, st'', hls', h1, hsh, hnot, rfl, rfl⟩
          · rw [hls] at h1; simp at h1
          · rw [hm, hre] at h1; simp at h1
          · rw [hm, hre] at h1; simp at h1
          · rw [hm, hre] at h1
            simp only [Reaction.done.injEq] at h1
            subst h1
            rw [hls] at hls'
            simp only [Option.some.injEq] at hls'
            subst hls'
            have htr := notify_trig orig q now r.mapping ls _ _ _ hnot (hown.mono (evolves_setMapping now st _ _ hsh)) hd
              (hln r (List.mem_of_getElem? hr) ls hls) d hdep
            have hv : ((st.setMapping r.mapping m').mappings r.mapping).value = m'.value := by
              simp [State.setMapping]
            rw [hv] at htr
            have := ((setMapping_quiet orig q st r.mapping m').trig htr).quiet (closeReq_quiet orig q st'' i)
            simpa using this
        · have hne : st.requests[i].mapping ≠ src := by
            intro he
            exact hij (index_unique st.requests hn i j _ _ hri hr (by rw [he, hm]))
          have hq := parseReq_quiet src orig q st now i msg st₁ es₁ b₁ _ hri hp ha hown (.inl hne)
          refine hq.trig ?_
          obtain ⟨r₁, hr₁, he₁⟩ := p1.old j r hr
          -- the request is not closed
          have hopen : ∃ ext, r₁.listeners = some (ls ++ ext) := by
            rcases parseReq_cases st now i msg st₁ es₁ b₁ _ hri hp with
              ⟨-, rfl, -⟩ | ⟨-, rfl, -⟩ | ⟨_, _, -, -, -, rfl, -⟩ | ⟨ls', m', st'', -, -, hsh, hnot, rfl, -⟩
            · rw [hr] at hr₁
              simp only [Option.some.injEq] at hr₁
              exact ⟨[], by rw [← hr₁, hls, List.append_nil]⟩
            · rw [hr] at hr₁
              simp only [Option.some.injEq] at hr₁
              exact ⟨[], by rw [← hr₁, hls, List.append_nil]⟩
            · simp only [State.setMapping, hr, Option.some.injEq] at hr₁
              exact ⟨[], by rw [← hr₁, hls, List.append_nil]⟩
            · obtain ⟨ext, he⟩ := notify_ext _ _ _ _ _ _ hnot j r (by simpa [State.setMapping] using hr)
              refine ⟨ext, ?_⟩
              have : st''.requests[j]? = some r₁ := by
                have hcl := hr₁
                simp only [closeReq] at hcl
                split at hcl
                · exact hcl
                · split at hcl
                  · simpa [hij] using hcl
                  · exact hcl
              rw [this] at he
              simp only [Option.some.injEq] at he
              rw [he]
              simp [hls]
          obtain ⟨ext, hext⟩ := hopen
          exact ih st₁ (i + 1) st₂ es₂ b₂ hl hat (hown.mono p1) (p1.nodup hn) (p1.lnodup hln) r₁ (by omega)
            (by omega) hr₁ (by rw [he₁.mapping, hm]) (ls ++ ext) hext (by simp [hd]) (by rw [hq.dep, hdep])
            (by rw [(p2 src (Ne.symm hne)).1]; exact hre)

theorem receiveLoop_induct (I : State → Prop) (now : Int) (msg : Msg)
    (hI : ∀ (st : State) (i : Nat) (r : Req) (st' : State) (es : List Eff) (b : Bool), st.requests[i]? = some r →
      parseReq st now i msg = .ok (st', es, b) → I st → I st')
    (fuel : Nat) (st : State) (i : Nat) (st' : State) (es : List Eff) (b : Bool)
    (h : receiveLoop now msg fuel st i = .ok (st', es, b)) (hi : I st) : I st' := by
  induction fuel generalizing st i st' es b with
  | zero =>
    simp only [receiveLoop, Except.ok.injEq, Prod.mk.injEq] at h
    rw [← h.1]; exact hi
  | succ fuel ih =>
    simp only [receiveLoop] at h
    by_cases hl : i < st.requests.length
    · rw [if_pos hl] at h
      cases hp : parseReq st now i msg with
      | error e => rw [hp] at h; simp at h
      | ok p =>
        obtain ⟨st₁, es₁, b₁⟩ := p
        rw [hp] at h
        simp only at h
        cases hr : receiveLoop now msg fuel st₁ (i + 1) with
        | error e => rw [hr] at h; simp at h
        | ok q =>
          obtain ⟨st₂, es₂, b₂⟩ := q
          rw [hr] at h
          simp only [Except.ok.injEq, Prod.mk.injEq] at h
          obtain ⟨rfl, rfl, rfl⟩ := h
          exact ih st₁ (i + 1) st₂ es₂ b₂ hr (hI st i _ st₁ es₁ b₁ (List.getElem?_eq_getElem hl) hp hi)
    · rw [if_neg hl] at h
      simp only [Except.ok.injEq, Prod.mk.injEq] at h
      rw [← h.1]; exact hi

/-- An invariant of `notify` follows from the one of `depChanged`. -/
theorem notify_induct (I : State → Prop) (now : Int) (src : Nat)
    (hI : ∀ (st : State) (o : Nat) (st' : State) (es : List Eff), depChanged st now o src = .ok (st', es) → I st → I st')
    (ls : List Lst) (st st' : State) (es : List Eff)
    (h : notify st now src ls = .ok (st', es)) (hi : I st) : I st' := by
  induction ls generalizing st st' es with
  | nil =>
    simp only [notify, Except.ok.injEq, Prod.mk.injEq] at h
    rw [← h.1]; exact hi
  | cons l ls ih =>
    cases l with
    | ext n =>
      simp only [notify] at h
      cases hn : notify st now src ls with
      | error e => rw [hn] at h; simp at h
      | ok p =>
        rw [hn] at h
        simp only [Except.ok.injEq, Prod.mk.injEq] at h
        obtain ⟨rfl, rfl⟩ := h
        exact ih st p.1 p.2 hn hi
    | dep o =>
      simp only [notify] at h
      cases hd : depChanged st now o src with
      | error e => rw [hd] at h; simp at h
      | ok p =>
        rw [hd] at h
        simp only at h
        cases hn : notify p.1 now src ls with
        | error e => rw [hn] at h; simp at h
        | ok r =>
          rw [hn] at h
          simp only [Except.ok.injEq, Prod.mk.injEq] at h
          obtain ⟨rfl, rfl⟩ := h
          exact ih p.1 r.1 r.2 hn (hI st o p.1 p.2 hd hi)

/-- The entry of `orig` is open. -/
def OpenAt (orig : Nat) (st : State) : Prop := ∀ r ∈ st.requests, r.mapping = orig → r.listeners.isSome

theorem depChanged_open (orig : Nat) (now : Int) (o src : Nat) (st st' : State) (es : List Eff)
    (h : depChanged st now o src = .ok (st', es)) (hi : OpenAt orig st) : OpenAt orig st' := by
  have key : ∀ (s : State) (mid : Nat) (l : Option Lst) (b : Bool), registerMapping s now mid l b = .ok (st', es) →
      OpenAt orig s → OpenAt orig st' := by
    intro s mid l b hs ho
    rcases registerMapping_cases _ _ _ _ _ _ _ hs with ⟨-, rfl, -⟩ | ⟨-, -, rfl | ⟨i, r, x, ls, -, -, -, -, -, rfl⟩⟩
    · intro r hr hm
      simp only [List.mem_append, List.mem_singleton] at hr
      rcases hr with hr | rfl
      · exact ho r hr hm
      · rfl
    · exact ho
    · intro y hy hm
      rcases List.mem_or_eq_of_mem_set hy with h1 | h1
      · exact ho y h1 hm
      · subst h1; rfl
  unfold depChanged at h
  split at h
  · simp only [Except.ok.injEq, Prod.mk.injEq] at h
    rw [← h.1]; exact hi
  · split at h
    · exact key _ _ _ _ h hi
    · simp only [Except.ok.injEq, Prod.mk.injEq] at h
      rw [← h.1]; exact hi

theorem parseReq_open (orig : Nat) (m₀ : Mapping) (msg : Msg)
    (hno : ∀ m, shape m = shape m₀ → ∀ m', reaction m msg ≠ .done m')
    (now : Int) (st : State) (i : Nat) (r : Req) (st' : State) (es : List Eff) (b : Bool)
    (hr : st.requests[i]? = some r) (h : parseReq st now i msg = .ok (st', es, b))
    (hi : OpenAt orig st ∧ shape (st.mappings orig) = shape m₀) : OpenAt orig st' ∧ shape (st'.mappings orig) = shape m₀ := by
  refine ⟨?_, by rw [(parseReq_evolves st now i msg st' es b r hr h).1.shape, hi.2]⟩
  rcases parseReq_cases st now i msg st' es b r hr h with
    ⟨-, rfl, rfl, -⟩ | ⟨-, rfl, rfl, -⟩ | ⟨ls, m', -, -, hsh, rfl, rfl, -⟩ | ⟨ls, m', st'', hls, hre, hsh, hn, rfl, -⟩
  · exact hi.1
  · exact hi.1
  · exact hi.1
  · have hne : r.mapping ≠ orig := by
      rintro rfl
      exact hno _ hi.2 _ hre
    have ho : OpenAt orig st'' := notify_induct (OpenAt orig) now r.mapping
      (fun st o st' es h hi => depChanged_open orig now o r.mapping st st' es h hi) ls _ _ _ hn hi.1
    obtain ⟨r'', h1, h2⟩ := (notify_spec _ _ _ _ _ _ hn).1.old i r (by simpa [State.setMapping] using hr)
    unfold closeReq
    rw [h1]
    simp only
    split
    · intro y hy hm
      rcases List.mem_or_eq_of_mem_set hy with h3 | h3
      · exact ho y h3 hm
      · subst h3
        simp only [h2.mapping] at hm
        exact absurd hm hne
    · exact ho

end PySwitch.Client
