import Verif.Lemmas.VirtualParams
import Verif.Lemmas.KemperProtocol
import Verif.Props.ClientBi

namespace PySwitch.Client
open PySwitch.Wire PySwitch.Mapping PySwitch.Mapping.Spec PySwitch.Client.Spec PySwitch.Props

/-! ### What the calls of the client do to one mapping -/

theorem registerMapping_mappings (st : State) (now : Int) (mid : Nat) (l : Option Lst) (send : Bool) (st' : State)
    (es : List Eff) (h : registerMapping st now mid l send = .ok (st', es)) : st'.mappings = st.mappings := by
  unfold registerMapping at h
  split at h
  · simp only [Except.ok.injEq, Prod.mk.injEq] at h
    rw [← h.1]
  · split at h
    · split at h
      · simp at h
      · simp only [Except.ok.injEq, Prod.mk.injEq] at h
        rw [← h.1]
    · simp only [Except.ok.injEq, Prod.mk.injEq] at h
      rw [← h.1]

/-- Registering and requesting leave values and set messages as they are. -/
theorem register_frame (P : Protocol) (st : State) (now : Int) (mid' : Nat) (l : Option Nat) (st' : State)
    (es : List Eff) (h : registerBi P st now mid' l = .ok (st', es)) (mid : Nat) :
    (st'.mappings mid).value = (st.mappings mid).value ∧ (st'.mappings mid).set = (st.mappings mid).set := by
  simp only [registerBi, register] at h
  generalize hs : (if P.isBidirectional mid' = true then
    st.setMapping mid' { st.mappings mid' with request := .none, depends := none } else st) = s at h
  have hv : (s.mappings mid).value = (st.mappings mid).value ∧ (s.mappings mid).set = (st.mappings mid).set := by
    rw [← hs]
    split
    · simp only [State.setMapping]
      split
      · rename_i hm; subst hm; exact ⟨rfl, rfl⟩
      · exact ⟨rfl, rfl⟩
    · exact ⟨rfl, rfl⟩
  split at h
  · rw [registerMapping_mappings _ _ _ _ _ _ _ h]
    exact hv
  · simp only [Except.ok.injEq, Prod.mk.injEq] at h
    rw [← h.1]
    exact hv

theorem request_frame (st : State) (now : Int) (mid' : Nat) (l : Option Nat) (st' : State)
    (es : List Eff) (h : request st now mid' l = .ok (st', es)) : st'.mappings = st.mappings := by
  simp only [request] at h
  split at h
  · simp only [Except.ok.injEq, Prod.mk.injEq] at h
    rw [← h.1]
  · split at h
    · rw [registerMapping_mappings _ _ _ _ _ _ _ h]
      split <;> rfl
    · rw [registerMapping_mappings _ _ _ _ _ _ _ h]

/-- What setting does to the mappings: the set messages, and perhaps the value, of this mapping. -/
theorem setBi_frame (P : Protocol) (st : State) (now : Int) (mid' : Nat) (v : SetVal) (st' : State)
    (es : List Eff) (h : setBi P st now mid' v = .ok (st', es)) :
    ∃ s sends rest, Client.set st mid' v = .ok (s, sends) ∧ es = sends ++ rest ∧
      (st'.mappings = s.mappings ∨ st'.mappings = (s.setMapping mid' { s.mappings mid' with value := some (toVal v) }).mappings) := by
  simp only [setBi] at h
  cases hs : Client.set st mid' v with
  | error e => rw [hs] at h; simp at h
  | ok p =>
    rw [hs] at h
    obtain ⟨s, sends⟩ := p
    simp only at h
    refine ⟨s, sends, ?_⟩
    split at h
    · split at h
      · simp only [Except.ok.injEq, Prod.mk.injEq] at h
        exact ⟨_, rfl, h.2.symm, .inl (by rw [← h.1])⟩
      · split at h
        · simp at h
        · rename_i i hi st2 es2 hn
          simp only [Except.ok.injEq, Prod.mk.injEq] at h
          obtain ⟨rfl, rfl⟩ := h
          refine ⟨_, rfl, rfl, .inr ?_⟩
          unfold notifyListeners at hn
          split at hn
          · simp only [Except.ok.injEq, Prod.mk.injEq] at hn
            rw [← hn.1]
          · split at hn
            · simp at hn
            · exact (notify_spec _ _ _ _ _ _ hn).2.1
    · simp only [Except.ok.injEq, Prod.mk.injEq] at h
      exact ⟨[], rfl, by simp [h.2], .inl (by rw [← h.1])⟩

theorem setBi_other (P : Protocol) (st : State) (now : Int) (mid' : Nat) (v : SetVal) (st' : State)
    (es : List Eff) (h : setBi P st now mid' v = .ok (st', es)) (mid : Nat) (hne : mid ≠ mid') :
    st'.mappings mid = st.mappings mid := by
  obtain ⟨s, sends, rest, h1, -, h2⟩ := setBi_frame P st now mid' v st' es h
  obtain ⟨-, -, f, hf⟩ := set_cases st mid' v s sends h1
  have : s.mappings mid = st.mappings mid := by rw [hf, if_neg hne]
  rcases h2 with h2 | h2
  · rw [h2, this]
  · rw [h2]; simp only [State.setMapping, if_neg hne]; exact this

/-- Receiving a message: the set messages stay. -/
theorem receive_set (st : State) (hw : WF st) (now : Int) (msg : Option Msg) (st' : State) (es : List Eff) (b : Bool)
    (h : receive st now msg = .ok (st', es, b)) (mid : Nat) :
    (st'.mappings mid).set = (st.mappings mid).set := by
  have ha : ((afterCleanup st now).1.mappings mid).set = (st.mappings mid).set := by
    rw [(afterCleanup_spec st now hw.isOpen).2.2.2.2.2.2 mid]
    split <;> rfl
  rcases receive_cases st now msg st' es b h with ⟨-, h1, -⟩ | ⟨m, s, es', -, h1, rfl, -⟩
  · rw [h1]; exact ha
  · have := (receiveLoop_evolves _ _ _ _ _ _ _ _ h1).1.shape mid
    have h2 := congrArg Mapping.set this
    simp only [shape] at h2
    rw [← ha]
    exact h2

/-- Cleaning up does not touch a mapping with a permanent registration. -/
theorem afterCleanup_permanent (st : State) (hw : WF st) (now : Int) (r : Req) (hr : r ∈ st.requests)
    (hl : r.lifetime = none) : (afterCleanup st now).1.mappings r.mapping = st.mappings r.mapping := by
  rw [(afterCleanup_spec st now hw.isOpen).2.2.2.2.2.2]
  rw [if_neg]
  simp only [Bool.and_eq_true, List.any_eq_true, not_and, not_exists]
  intro _ x hx h1 _ _
  have : x = r := by
    obtain ⟨i1, h1'⟩ := List.mem_iff_getElem?.1 hx
    obtain ⟨i2, h2'⟩ := List.mem_iff_getElem?.1 hr
    have := index_unique st.requests hw.nodup i1 i2 x r h1' h2' (by simpa using h1.2)
    subst this
    rw [h1'] at h2'
    simpa using h2'
  rw [this] at h1
  simp [expired, hl] at h1

/-- Receiving nothing does not touch a mapping with a permanent registration. -/
theorem receive_none_permanent (st : State) (hw : WF st) (now : Int) (st' : State) (es : List Eff) (b : Bool)
    (h : receive st now none = .ok (st', es, b)) (r : Req) (hr : r ∈ st.requests) (hl : r.lifetime = none) :
    st'.mappings r.mapping = st.mappings r.mapping := by
  rcases receive_cases st now none st' es b h with ⟨-, h1, -⟩ | ⟨m, s, es', h0, -⟩
  · rw [h1]; exact afterCleanup_permanent st hw now r hr hl
  · simp at h0

/-- Receiving something else does not touch a mapping with a permanent registration. -/
theorem receive_other_permanent (st : State) (hw : WF st) (now : Int) (msg : Msg) (st' : State) (es : List Eff)
    (b : Bool) (h : receive st now (some msg) = .ok (st', es, b)) (r : Req) (hr : r ∈ st.requests)
    (hl : r.lifetime = none) (hp : (st.mappings r.mapping).twoPart = false) (t : Msg)
    (ht : (st.mappings r.mapping).response = .one t) (hg : GoodTemplate t) (ha : ¬Answers msg t) :
    st'.mappings r.mapping = st.mappings r.mapping := by
  obtain ⟨ls, hls⟩ := Option.isSome_iff_exists.1 (hw.isOpen r hr)
  have hc := afterCleanup_permanent st hw now r hr hl
  obtain ⟨-, -, -, h4⟩ := receive_at st hw now msg st' es b h r hr (by simp [hl]) ls hls
  rw [hc] at h4
  have hv := (C17_attribution _ hp t ht hg msg).2 ha
  have : reaction (st.mappings r.mapping) msg = .partly (st.mappings r.mapping) := by
    simp [reaction, ht, Response.truthy, hv]
  rw [this] at h4
  exact h4.1

/-- Receiving an answer gives a mapping with a permanent registration its value. -/
theorem receive_answer_permanent (st : State) (hw : WF st) (now : Int) (msg : Msg) (st' : State) (es : List Eff)
    (b : Bool) (h : receive st now (some msg) = .ok (st', es, b)) (r : Req) (hr : r ∈ st.requests)
    (hl : r.lifetime = none) (hp : (st.mappings r.mapping).twoPart = false)
    (hty : (st.mappings r.mapping).type = .numeric) (t : Msg)
    (ht : (st.mappings r.mapping).response = .one t) (hg : GoodTemplate t) (ha : Answers msg t) :
    ∃ v, Carries msg v ∧ (st'.mappings r.mapping).value = some (.num v) := by
  obtain ⟨ls, hls⟩ := Option.isSome_iff_exists.1 (hw.isOpen r hr)
  have hc := afterCleanup_permanent st hw now r hr hl
  obtain ⟨-, -, -, h4⟩ := receive_at st hw now msg st' es b h r hr (by simp [hl]) ls hls
  rw [hc] at h4
  obtain ⟨v, hv, hpv⟩ := C17_value _ hp hty t ht hg msg ha
  have : reaction (st.mappings r.mapping) msg = .done { st.mappings r.mapping with value := some (.num v) } := by
    simp only [reaction, ht, Response.truthy, hpv, resultFinished, hp]
    rfl
  rw [this] at h4
  exact ⟨v, hv, by rw [h4.1]⟩

end PySwitch.Client

namespace PySwitch.Kemper.Synced
open PySwitch.Wire PySwitch.Mapping PySwitch.Mapping.Spec PySwitch.Kemper.Virtual PySwitch.Kemper.Protocol
open PySwitch.Client PySwitch.Client.Spec PySwitch.Kemper.Protocol.Spec
open PySwitch.Kemper.Synced.Spec PySwitch.Props

/-! ### The client of PySwitch -/

/-- The calls of the bidirectional client in terms of the client. -/
theorem bi_cases (P : Client.Protocol) (st : BiState) (now : Int) (op : BiOp) (st' : BiState) (es : List Eff)
    (h : biStep P st now op = .ok (st', es)) :
    (∃ mid l, op = .register mid l ∧ registerBi P st.client now mid l = .ok (st'.client, es)) ∨
    (∃ mid l, op = .request mid l ∧ Client.request st.client now mid l = .ok (st'.client, es)) ∨
    (∃ mid v, op = .set mid v ∧ setBi P st.client now mid v = .ok (st'.client, es)) ∨
    (∃ msg b, op = .receive msg ∧ Client.receive st.client now msg = .ok (st'.client, es, b)) ∨
    (op = .update ∧ ((st'.client = st.client ∧ ∀ e ∈ es, ∃ m, e = .send m) ∨
      (st'.client = (connectionLost P st.client).1 ∧
        ∃ tuner lease, es = (connectionLost P st.client).2 ++ [.send (beaconMsg true tuner lease)]))) := by
  cases op with
  | register mid l =>
    simp only [biStep] at h
    cases hr : registerBi P st.client now mid l with
    | error e => rw [hr] at h; simp [Except.map] at h
    | ok r =>
      rw [hr] at h
      simp only [Except.map, Except.ok.injEq, Prod.mk.injEq] at h
      obtain ⟨rfl, rfl⟩ := h
      exact .inl ⟨mid, l, rfl, hr⟩
  | request mid l =>
    simp only [biStep] at h
    cases hr : Client.request st.client now mid l with
    | error e => rw [hr] at h; simp [Except.map] at h
    | ok r =>
      rw [hr] at h
      simp only [Except.map, Except.ok.injEq, Prod.mk.injEq] at h
      obtain ⟨rfl, rfl⟩ := h
      exact .inr (.inl ⟨mid, l, rfl, hr⟩)
  | set mid v =>
    simp only [biStep] at h
    cases hr : setBi P st.client now mid v with
    | error e => rw [hr] at h; simp [Except.map] at h
    | ok r =>
      rw [hr] at h
      simp only [Except.map, Except.ok.injEq, Prod.mk.injEq] at h
      obtain ⟨rfl, rfl⟩ := h
      exact .inr (.inr (.inl ⟨mid, v, rfl, hr⟩))
  | receive msg =>
    refine .inr (.inr (.inr (.inl ⟨msg, ?_⟩)))
    simp only [biStep, biReceive] at h
    cases hr : Client.receive st.client now msg with
    | error e => rw [hr] at h; simp [Except.map] at h
    | ok r =>
      rw [hr] at h
      obtain ⟨c, es', b⟩ := r
      cases b with
      | true =>
        simp only [Except.map, Except.ok.injEq, Prod.mk.injEq] at h
        obtain ⟨rfl, rfl⟩ := h
        exact ⟨true, rfl, rfl⟩
      | false =>
        cases msg with
        | none =>
          simp only [Except.map, Except.ok.injEq, Prod.mk.injEq] at h
          obtain ⟨rfl, rfl⟩ := h
          exact ⟨false, rfl, rfl⟩
        | some m =>
          simp only [Except.map, Except.ok.injEq, Prod.mk.injEq] at h
          obtain ⟨rfl, rfl⟩ := h
          exact ⟨false, rfl, rfl⟩
  | update =>
    refine .inr (.inr (.inr (.inr ⟨rfl, ?_⟩)))
    simp only [biStep, biUpdate, Except.ok.injEq, Prod.mk.injEq] at h
    obtain ⟨rfl, rfl⟩ := h
    rcases update_spec st.protocol now with ⟨-, -, hu⟩ | ⟨-, -, hu⟩ | ⟨-, -, hu⟩ | ⟨-, -, -, hu⟩ | ⟨-, -, -, hu⟩
    · rw [hu]
      cases st.protocol.hasBeenRunning with
      | true =>
        right
        exact ⟨rfl, st.protocol.tunerMode, st.protocol.lease, rfl⟩
      | false =>
        left
        simp
    · rw [hu]; left; simp
    · rw [hu]; left; simp
    · rw [hu]; left; simp
    · rw [hu]; left; simp

theorem settable_valued {t : Msg} (h : Settable t) {v : Nat} (hv : v < 16384) :
    Settable (valued v t) ∧ ∀ w, valued w (valued v t) = valued w t := by
  cases t with
  | cc => exact ⟨trivial, fun _ => rfl⟩
  | pc => exact ⟨trivial, fun _ => rfl⟩
  | unknown => exact h.elim
  | bad => exact h.elim
  | sysex man d =>
    obtain ⟨h1, h2, h3⟩ := h
    have hl : (d.take 6).length = 6 := by simp; omega
    refine ⟨⟨by simp; omega, by simp; omega, ?_⟩, ?_⟩
    · intro b hb
      simp only [List.mem_append, List.mem_cons, List.not_mem_nil, or_false] at hb
      rcases hb with hb | hb | hb
      · exact h3 b (List.mem_of_mem_take hb)
      · omega
      · omega
    · intro w
      simp only [valued, Msg.sysex.injEq, true_and]
      rw [List.take_append_of_le_length (by omega), List.take_take]
      rfl

/-- The mapping of the parameter. -/
structure Fine (page number mid : Nat) (setter : Msg) (c : Client.State) : Prop where
  wf : WF c
  twoPart : (c.mappings mid).twoPart = false
  type : (c.mappings mid).type = .numeric
  response : (c.mappings mid).response = .one (template page number)
  setter : ∃ t, (c.mappings mid).set = .one t ∧ Settable t ∧ ∀ v, valued v t = valued v setter

/-- What happens to the mapping if it is set. -/
theorem set_effect {page number mid : Nat} {setter : Msg} {c : Client.State} (h : Fine page number mid setter c)
    (P : Client.Protocol) (now : Int) (v : Nat) (hv : v < 16384) (c' : Client.State) (es : List Eff)
    (hs : setBi P c now mid (.one v) = .ok (c', es)) :
    (∃ t, (c'.mappings mid).set = .one t ∧ Settable t ∧ ∀ v, valued v t = valued v setter) ∧
    (.send (valued v setter) ∈ es) ∧
    ((c'.mappings mid).value = (c.mappings mid).value ∨ (c'.mappings mid).value = some (.num v)) := by
  obtain ⟨t, h1, h2, h3⟩ := h.setter
  obtain ⟨s, sends, rest, k1, k2, k3⟩ := setBi_frame P c now mid (.one v) c' es hs
  have hset : Client.set c mid (.one v) =
      .ok (c.setMapping mid { c.mappings mid with set := .one (valued v t) }, [.send (valued v t)]) := by
    simp only [Client.set, h1, MsgField.truthy, h.type, setValue, setMsg_valued t h2 v hv]
    rfl
  rw [hset] at k1
  simp only [Except.ok.injEq, Prod.mk.injEq] at k1
  obtain ⟨rfl, rfl⟩ := k1
  obtain ⟨g1, g2⟩ := settable_valued h2 hv
  refine ⟨⟨valued v t, ?_, g1, fun w => (g2 w).trans (h3 w)⟩, by rw [k2, ← h3]; simp, ?_⟩
  · rcases k3 with k3 | k3 <;> rw [k3] <;> simp [State.setMapping]
  · rcases k3 with k3 | k3 <;> rw [k3] <;> simp [State.setMapping, toVal]

/-- The client stays in order. -/
theorem fine_step {page number mid : Nat} {setter : Msg} {st st' : BiState}
    (h : Fine page number mid setter st.client) (P : Client.Protocol) (now : Int) (op : BiOp) (es : List Eff)
    (hs : biStep P st now op = .ok (st', es)) (hset : ∀ v, op = .set mid v → ∃ n, v = .one n ∧ n < 16384) :
    Fine page number mid setter st'.client ∧
    (∀ r ∈ st.client.requests, r.lifetime = none → ∃ r' ∈ st'.client.requests, r'.mapping = r.mapping ∧ r'.lifetime = none) := by
  have fin : ∀ cop es', Client.step P st.client now cop = .ok (st'.client, es') →
      (∃ t, (st'.client.mappings mid).set = .one t ∧ Settable t ∧ ∀ v, valued v t = valued v setter) →
      Fine page number mid setter st'.client ∧ (∀ r ∈ st.client.requests, r.lifetime = none →
        ∃ r' ∈ st'.client.requests, r'.mapping = r.mapping ∧ r'.lifetime = none) := by
    intro cop es' hc hset
    obtain ⟨r1, -, -, r4, -⟩ := step_rel P st.client now cop st'.client es' hc h.wf
    refine ⟨⟨wf_step P st.client now cop st'.client es' hc h.wf, by rw [(r4 mid).twoPart, h.twoPart],
      by rw [(r4 mid).type, h.type], by rw [(r4 mid).response, h.response], hset⟩, ?_⟩
    intro r hr hl
    obtain ⟨r', a1, a2, a3, -⟩ := r1.permanent r hr hl
    exact ⟨r', a1, a2, a3⟩
  rcases bi_cases P st now op st' es hs with ⟨m, l, rfl, hc⟩ | ⟨m, l, rfl, hc⟩ | ⟨m, v, rfl, hc⟩ | ⟨msg, b, rfl, hc⟩ |
    ⟨rfl, ⟨hc, -⟩ | ⟨hc, -⟩⟩
  · exact fin (.register m l) es hc (by rw [(register_frame P _ now m l _ es hc mid).2]; exact h.setter)
  · exact fin (.request m l) es hc (by rw [request_frame _ now m l _ es hc]; exact h.setter)
  · refine fin (.set m v) es hc ?_
    by_cases hm : m = mid
    · subst hm
      obtain ⟨n, rfl, hn⟩ := hset v rfl
      exact (set_effect h P now n hn _ _ hc).1
    · rw [setBi_other P _ now m v _ es hc mid (Ne.symm hm)]; exact h.setter
  · refine fin (.receive msg) es (by simp only [Client.step, hc]) ?_
    rw [receive_set _ h.wf now msg _ es b hc mid]
    exact h.setter
  · rw [hc]
    exact ⟨h, fun r hr hl => ⟨r, hr, rfl, hl⟩⟩
  · refine fin .connectionLost (connectionLost P st.client).2 (by simp only [Client.step, hc]) ?_
    obtain ⟨v, hv⟩ := (connectionLost_state P st.client).2 mid
    rw [hc, hv]
    exact h.setter

/-! ### PySwitch and the device -/

theorem ended_toBytes (m : Msg) : Ended (toBytes 0 m) := by
  cases m with
  | sysex man d =>
    intro _
    rw [show toBytes 0 (.sysex man d) = ([240] ++ man ++ d) ++ [247] by simp [toBytes]]
    exact List.getLast?_concat
  | _ => simp [Ended, toBytes]

theorem ended_wire (es : List Eff) : ∀ b ∈ wire es, Ended b := by
  intro b hb
  simp only [wire, List.mem_filterMap] at hb
  obtain ⟨e, -, he⟩ := hb
  cases e <;> simp at he
  rw [← he]
  exact ended_toBytes _

theorem mem_wire {es : List Eff} {m : Msg} (h : .send m ∈ es) : toBytes 0 m ∈ wire es := by
  simp only [wire, List.mem_filterMap]
  exact ⟨_, h, rfl⟩

/-- What holds all the time. -/
structure Sound (page number : Nat) (ps₀ : List Param) (i mid : Nat) (setter : Msg) (s : Sys) : Prop where
  fine : Fine page number mid setter s.py.client
  good : ∃ n, Good page number s.params i n
  grows : Grows ps₀ s.params
  ended : ∀ b ∈ s.toDev, Ended b
  product : s.dev.productType = 2

theorem update_quiet (page number : Nat) (d : Virtual.State) (now : Int) :
    (Virtual.update d now).1.productType = d.productType ∧ Silent page number (Virtual.update d now).2 := by
  have hk : ∀ p c, ¬Answering page number (keepAliveBytes p c) := by
    intro p c ha
    have := answering_sysex (by simp [keepAliveBytes]) (by simp [keepAliveBytes]) ha
    simp [keepAliveBytes] at this
  unfold Virtual.update
  split
  · simp only
    split <;> (split <;> first | exact ⟨rfl, fun b hb => by
        rw [List.mem_singleton.1 hb]; exact hk _ _⟩ | exact ⟨rfl, by simp [Silent]⟩)
  · exact ⟨rfl, by simp [Silent]⟩

/-- The events keep it. -/
theorem sound_step {page number i mid : Nat} {ps₀ : List Param} {setter : Msg} {s s' : Sys}
    (h : Sound page number ps₀ i mid setter s) (P : Client.Protocol) (now : Int) (e : Ev)
    (ha : Allowed page number ps₀ i mid setter e) (hs : step P s now e = .ok s') :
    Sound page number ps₀ i mid setter s' ∧ (∀ r ∈ s.py.client.requests, r.lifetime = none →
        ∃ r' ∈ s'.py.client.requests, r'.mapping = r.mapping ∧ r'.lifetime = none) := by
  have keep : ∀ r ∈ s.py.client.requests, r.lifetime = none →
      ∃ r' ∈ s.py.client.requests, r'.mapping = r.mapping ∧ r'.lifetime = none := fun r hr hl => ⟨r, hr, rfl, hl⟩
  cases e with
  | py op =>
    simp only [step] at hs
    cases hb : biStep P s.py now op with
    | error e => rw [hb] at hs; simp at hs
    | ok r =>
      rw [hb] at hs
      simp only [Except.ok.injEq] at hs
      subst hs
      obtain ⟨f1, f2⟩ := fine_step h.fine P now op r.2 hb (by
        rintro v rfl
        obtain ⟨n, h1, h2, -⟩ := ha rfl
        exact ⟨n, h1, h2⟩)
      refine ⟨⟨f1, h.good, h.grows, ?_, h.product⟩, f2⟩
      intro b hb'
      rcases List.mem_append.1 hb' with hb' | hb'
      · exact h.ended b hb'
      · exact ended_wire _ b hb'
  | pyReceive =>
    simp only [step] at hs
    split at hs
    · simp only [Except.ok.injEq] at hs
      subst hs
      exact ⟨h, keep⟩
    · split at hs
      · simp only [Except.ok.injEq] at hs
        subst hs
        exact ⟨⟨h.fine, h.good, h.grows, h.ended, h.product⟩, keep⟩
      · split at hs
        · simp at hs
        · rename_i m _ _ r hb
          simp only [Except.ok.injEq] at hs
          subst hs
          obtain ⟨f1, f2⟩ := fine_step h.fine P now (.receive (some m)) r.2 hb (by simp)
          refine ⟨⟨f1, h.good, h.grows, ?_, h.product⟩, f2⟩
          intro b hb'
          rcases List.mem_append.1 hb' with hb' | hb'
          · exact h.ended b hb'
          · exact ended_wire _ b hb'
  | devUpdate =>
    simp only [step, Except.ok.injEq] at hs
    subst hs
    exact ⟨⟨h.fine, h.good, h.grows, h.ended, by rw [(update_quiet page number s.dev now).1]; exact h.product⟩, keep⟩
  | devReceive =>
    simp only [step] at hs
    split at hs
    · simp only [Except.ok.injEq] at hs
      subst hs
      exact ⟨h, keep⟩
    · rename_i b rest hd
      simp only [Except.ok.injEq] at hs
      subst hs
      obtain ⟨n, hg⟩ := h.good
      obtain ⟨r1, n', r2, r3, -⟩ := receive_effect hg s.dev h.product now b (h.ended b (by simp [hd]))
      exact ⟨⟨h.fine, ⟨n', r2⟩, h.grows.trans r3, fun b hb => h.ended b (by simp [hd, hb]), r1⟩, keep⟩
  | devSet j v =>
    simp only [step] at hs
    split at hs
    · simp only [Except.ok.injEq] at hs
      subst hs
      exact ⟨h, keep⟩
    · split at hs
      · simp only [Except.ok.injEq] at hs
        subst hs
        exact ⟨h, keep⟩
      · rename_i _ p hp _ r hr
        simp only [Except.ok.injEq] at hs
        subst hs
        obtain ⟨n, hg⟩ := h.good
        obtain ⟨n', r1, r2, -⟩ := devSet_effect hg s.dev.parameterSet j p hp v r hr
        exact ⟨⟨h.fine, ⟨n', r1⟩, h.grows.trans r2, h.ended, h.product⟩, keep⟩
  | devSend bytes =>
    simp only [step, Except.ok.injEq] at hs
    subst hs
    exact ⟨⟨h.fine, h.good, h.grows, h.ended, h.product⟩, keep⟩

/-- The value which PySwitch knows. -/
def known (s : Sys) (mid : Nat) : Option Val := (s.py.client.mappings mid).value

/-- Where the value of the device is. -/
def Track (page number : Nat) (ps₀ : List Param) (i mid : Nat) (s : Sys) (n : Nat) : Prop :=
  (∃ b ∈ s.toDev, Init b) ∨ Tail page number s.toPy n ∨
  (Silent page number s.toPy ∧ (known s mid = some (.num n) ∨
    ∃ b ∈ s.toDev, ∃ v, Takes ps₀ i b v ∧ known s mid = some (.num v)))

theorem Track.toDev {page number i mid : Nat} {ps₀ : List Param} {s : Sys} {n : Nat}
    (h : Track page number ps₀ i mid s n) {s' : Sys} (hd : ∀ b ∈ s.toDev, b ∈ s'.toDev) (hp : s'.toPy = s.toPy)
    (hk : known s' mid = known s mid) : Track page number ps₀ i mid s' n := by
  rcases h with ⟨b, h1, h2⟩ | h | ⟨h1, h2 | ⟨b, h2, v, h3, h4⟩⟩
  · exact .inl ⟨b, hd b h1, h2⟩
  · exact .inr (.inl (by rw [hp]; exact h))
  · exact .inr (.inr ⟨by rw [hp]; exact h1, .inl (by rw [hk]; exact h2)⟩)
  · exact .inr (.inr ⟨by rw [hp]; exact h1, .inr ⟨b, hd b h2, v, h3, by rw [hk]; exact h4⟩⟩)

theorem Track.toPy {page number i mid : Nat} {ps₀ : List Param} {s : Sys} {n n' : Nat}
    (h : Track page number ps₀ i mid s n) {s' : Sys} (hd : s'.toDev = s.toDev) (out : List (List Nat))
    (hp : s'.toPy = s.toPy ++ out) (hk : known s' mid = known s mid)
    (ho : (n' = n ∧ Silent page number out) ∨ Tail page number out n') : Track page number ps₀ i mid s' n' := by
  rcases ho with ⟨rfl, ho⟩ | ho
  · rcases h with h | h | ⟨h1, h2⟩
    · exact .inl (by rw [hd]; exact h)
    · exact .inr (.inl (by rw [hp]; exact h.append_silent ho))
    · exact .inr (.inr ⟨by rw [hp]; exact h1.append ho, by rw [hd, hk]; exact h2⟩)
  · exact .inr (.inl (by rw [hp]; exact ho.prepend))

theorem init_beacon (tuner : Bool) (lease : Nat) : Init (toBytes 0 (beaconMsg true tuner lease)) := by
  refine ⟨_, _, rfl, ?_⟩
  cases tuner <;> rfl

theorem Good.unique {page number i n n' : Nat} {ps : List Param} (h : Good page number ps i n)
    (h' : Good page number ps i n') : n' = n := by
  obtain ⟨q, h1, -, -, h2, -⟩ := h.param
  obtain ⟨q', h3, -, -, h4, -⟩ := h'.param
  rw [h1] at h3
  simp only [Option.some.injEq] at h3
  subst h3
  rw [h2] at h4
  simpa using h4.symm

theorem healthy_good {page number i n : Nat} {s : Sys} (h : Healthy i s) (hg : Good page number s.params i n) :
    s.dev.parameterSet = some 2 ∧ n < 16384 := by
  obtain ⟨h1, m, h2, h3⟩ := h
  obtain ⟨q, h4, -, -, h5, -⟩ := hg.param
  simp only [deviceValue, h4, Option.map_some, h5, Option.some.injEq, PVal.num.injEq] at h2
  exact ⟨h1, by omega⟩

theorem goodTemplate (page number : Nat) : GoodTemplate (template page number) := by simp [GoodTemplate, template]

/-- The events keep track of the value. -/
theorem track_step {page number i mid : Nat} {ps₀ : List Param} {setter : Msg} {s s' : Sys}
    (h : Sound page number ps₀ i mid setter s) (r : Req) (hr : r ∈ s.py.client.requests) (hm : r.mapping = mid)
    (hl : r.lifetime = none) (P : Client.Protocol) (now : Int) (e : Ev)
    (ha : Allowed page number ps₀ i mid setter e) (hs : step P s now e = .ok s') (hh : Healthy i s)
    (hh' : Healthy i s') (n : Nat) (hg : Good page number s.params i n) (ht : Track page number ps₀ i mid s n) :
    ∃ n', Good page number s'.params i n' ∧ Track page number ps₀ i mid s' n' := by
  obtain ⟨hset, hn⟩ := healthy_good hh hg
  cases e with
  | py op =>
    simp only [step] at hs
    cases hb : biStep P s.py now op with
    | error e => rw [hb] at hs; simp at hs
    | ok rr =>
      rw [hb] at hs
      simp only [Except.ok.injEq] at hs
      refine ⟨n, by rw [← hs]; exact hg, ?_⟩
      have hd : ∀ b ∈ s.toDev, b ∈ s'.toDev := by rw [← hs]; intro b hb; exact List.mem_append_left _ hb
      have hp : s'.toPy = s.toPy := by rw [← hs]
      have hk : known s' mid = (rr.1.client.mappings mid).value := by rw [← hs]; rfl
      rcases bi_cases P s.py now op rr.1 rr.2 hb with ⟨m, l, rfl, hc⟩ | ⟨m, l, rfl, hc⟩ | ⟨m, v, rfl, hc⟩ |
        ⟨msg, b, rfl, hc⟩ | ⟨rfl, ⟨hc, -⟩ | ⟨hc, tuner, lease, he⟩⟩
      · exact ht.toDev hd hp (by rw [hk, (register_frame P _ now m l _ _ hc mid).1]; rfl)
      · exact ht.toDev hd hp (by rw [hk, request_frame _ now m l _ _ hc]; rfl)
      · by_cases hm' : m = mid
        · subst hm'
          obtain ⟨w, rfl, hw, htk⟩ := ha rfl
          obtain ⟨-, e2, e3⟩ := set_effect h.fine P now w hw _ _ hc
          rcases e3 with e3 | e3
          · exact ht.toDev hd hp (by rw [hk, e3]; rfl)
          · rcases ht with ⟨b, h1, h2⟩ | h1 | ⟨h1, -⟩
            · exact .inl ⟨b, hd b h1, h2⟩
            · exact .inr (.inl (by rw [hp]; exact h1))
            · refine .inr (.inr ⟨by rw [hp]; exact h1, .inr ⟨_, ?_, w, htk, by rw [hk, e3]⟩⟩)
              rw [← hs]
              exact List.mem_append_right _ (mem_wire e2)
        · exact ht.toDev hd hp (by rw [hk, setBi_other P _ now m v _ _ hc mid (Ne.symm hm')]; rfl)
      · cases msg with
        | some msg => exact ha.elim
        | none =>
          have := receive_none_permanent _ h.fine.wf now _ _ b hc r hr hl
          rw [hm] at this
          exact ht.toDev hd hp (by rw [hk, this]; rfl)
      · exact ht.toDev hd hp (by rw [hk, hc]; rfl)
      · refine .inl ⟨_, ?_, init_beacon tuner lease⟩
        rw [← hs]
        exact List.mem_append_right _ (mem_wire (by rw [he]; simp))
  | pyReceive =>
    simp only [step] at hs
    cases hq : s.toPy with
    | nil =>
      rw [hq] at hs
      simp only [Except.ok.injEq] at hs
      subst hs
      exact ⟨n, hg, ht⟩
    | cons b rest =>
      rw [hq] at hs
      simp only at hs
      cases hm1 : (fromMessageBytes [0] b).1 with
      | none =>
        rw [hm1] at hs
        simp only [Except.ok.injEq] at hs
        subst hs
        refine ⟨n, hg, ?_⟩
        rcases ht with h1 | ⟨pre, post, h1, h2⟩ | ⟨h1, h2⟩
        · exact .inl h1
        · rw [hq] at h1
          cases pre with
          | nil =>
            simp only [List.nil_append, List.cons.injEq] at h1
            rw [h1.1, ans_parse page number n hg.p7 hg.n7 hn] at hm1
            simp at hm1
          | cons x pre =>
            simp only [List.cons_append, List.cons.injEq] at h1
            exact .inr (.inl ⟨pre, post, h1.2, h2⟩)
        · exact .inr (.inr ⟨fun b' hb' => h1 b' (by rw [hq]; simp [hb']), h2⟩)
      | some msg =>
        rw [hm1] at hs
        simp only at hs
        cases hb : biStep P s.py now (.receive (some msg)) with
        | error e => rw [hb] at hs; simp at hs
        | ok rr =>
          rw [hb] at hs
          simp only [Except.ok.injEq] at hs
          refine ⟨n, by rw [← hs]; exact hg, ?_⟩
          have hd : ∀ b ∈ s.toDev, b ∈ s'.toDev := by rw [← hs]; intro b hb; exact List.mem_append_left _ hb
          have hp : s'.toPy = rest := by rw [← hs]
          have hk : known s' mid = (rr.1.client.mappings mid).value := by rw [← hs]; rfl
          obtain ⟨bb, hc⟩ : ∃ bb, Client.receive s.py.client now (some msg) = .ok (rr.1.client, rr.2, bb) := by
            rcases bi_cases P s.py now _ rr.1 rr.2 hb with ⟨m, l, hx, -⟩ | ⟨m, l, hx, -⟩ | ⟨m, v, hx, -⟩ |
              ⟨msg', b', hx, hc⟩ | ⟨hx, -⟩ <;> simp at hx
            rw [hx]
            exact ⟨b', hc⟩
          rcases ht with ⟨b', h1, h2⟩ | ⟨pre, post, h1, h2⟩ | ⟨h1, h2⟩
          · exact .inl ⟨b', hd b' h1, h2⟩
          · rw [hq] at h1
            cases pre with
            | nil =>
              simp only [List.nil_append, List.cons.injEq] at h1
              rw [h1.1, ans_parse page number n hg.p7 hg.n7 hn] at hm1
              simp only [Option.some.injEq] at hm1
              obtain ⟨v, hv, hval⟩ := receive_answer_permanent _ h.fine.wf now msg _ _ bb hc r hr hl
                (by rw [hm]; exact h.fine.twoPart) (by rw [hm]; exact h.fine.type) (template page number)
                (by rw [hm]; exact h.fine.response) (goodTemplate _ _) (by rw [← hm1]; exact ⟨rfl, rfl⟩)
              refine .inr (.inr ⟨by rw [hp, h1.2]; exact h2, .inl ?_⟩)
              rw [hk, ← hm, hval]
              rw [← hm1] at hv
              obtain ⟨front, hi, lo, e1, e2⟩ := hv
              have : [0, 0, 1, 0, page, number] ++ [n / 128, n % 128] = front ++ [hi, lo] := e1
              have h3 := List.append_inj_right' this rfl
              simp only [List.cons.injEq, and_true] at h3
              rw [e2, ← h3.1, ← h3.2, Nat.div_add_mod]
            | cons x pre =>
              simp only [List.cons_append, List.cons.injEq] at h1
              exact .inr (.inl ⟨pre, post, by rw [hp]; exact h1.2, h2⟩)
          · have hna : ¬Answers msg (template page number) := fun hx => h1 b (by rw [hq]; simp) ⟨msg, hm1, hx⟩
            have := receive_other_permanent _ h.fine.wf now msg _ _ bb hc r hr hl
                (by rw [hm]; exact h.fine.twoPart) (template page number)
                (by rw [hm]; exact h.fine.response) (goodTemplate _ _) hna
            rw [hm] at this
            have hk' : known s' mid = known s mid := by rw [hk, this]; rfl
            refine .inr (.inr ⟨fun b' hb' => h1 b' (by rw [hq]; rw [hp] at hb'; simp [hb']), ?_⟩)
            rw [hk']
            rcases h2 with h2 | ⟨b', h2, v, h3, h4⟩
            · exact .inl h2
            · exact .inr ⟨b', hd b' h2, v, h3, h4⟩
  | devUpdate =>
    simp only [step, Except.ok.injEq] at hs
    subst hs
    exact ⟨n, hg, ht.toPy rfl _ rfl rfl (.inl ⟨rfl, (update_quiet page number s.dev now).2⟩)⟩
  | devReceive =>
    simp only [step] at hs
    cases hd : s.toDev with
    | nil =>
      rw [hd] at hs
      simp only [Except.ok.injEq] at hs
      subst hs
      exact ⟨n, hg, ht⟩
    | cons b rest =>
      rw [hd] at hs
      simp only [Except.ok.injEq] at hs
      obtain ⟨-, n', r2, -, r4, r5, r6⟩ := receive_effect hg s.dev h.product now b (h.ended b (by simp [hd]))
      have hset' := hh'.1
      rw [← hs] at hset'
      refine ⟨n', by rw [← hs]; exact r2, ?_⟩
      have ho := r4 hset hset'
      have hp : s'.toPy = s.toPy ++ (Virtual.receive s.dev s.params now b).2.2 := by rw [← hs]
      have hk : known s' mid = known s mid := by rw [← hs]; rfl
      have hd' : s'.toDev = rest := by rw [← hs]
      rcases ho with ⟨rfl, ho⟩ | ho
      · rcases ht with ⟨b', h1, h2⟩ | h1 | ⟨h1, h2⟩
        · rw [hd] at h1
          rcases List.mem_cons.1 h1 with rfl | h1
          · exact .inr (.inl (by rw [hp]; exact (r5 h2).prepend))
          · exact .inl ⟨b', by rw [hd']; exact h1, h2⟩
        · exact .inr (.inl (by rw [hp]; exact h1.append_silent ho))
        · refine .inr (.inr ⟨by rw [hp]; exact h1.append ho, ?_⟩)
          rw [hk]
          rcases h2 with h2 | ⟨b', h2, v, h3, h4⟩
          · exact .inl h2
          · rw [hd] at h2
            rcases List.mem_cons.1 h2 with rfl | h2
            · have := r6 v (grows_takes h.grows h3)
              exact .inl (by rw [h4, this])
            · exact .inr ⟨b', by rw [hd']; exact h2, v, h3, h4⟩
      · exact .inr (.inl (by rw [hp]; exact ho.prepend))
  | devSet j v =>
    simp only [step] at hs
    split at hs
    · simp only [Except.ok.injEq] at hs
      subst hs
      exact ⟨n, hg, ht⟩
    · split at hs
      · simp only [Except.ok.injEq] at hs
        subst hs
        exact ⟨n, hg, ht⟩
      · rename_i _ p hp _ rr hrr
        simp only [Except.ok.injEq] at hs
        subst hs
        obtain ⟨n', r1, -, r3⟩ := devSet_effect hg s.dev.parameterSet j p hp v rr hrr
        exact ⟨n', r1, ht.toPy rfl _ rfl rfl (r3 hset)⟩
  | devSend bytes =>
    simp only [step, Except.ok.injEq] at hs
    subst hs
    refine ⟨n, hg, ht.toPy rfl [bytes] rfl rfl (.inl ⟨rfl, ?_⟩)⟩
    intro b hb
    simp only [List.mem_singleton] at hb
    rw [hb]
    exact ha

theorem sound_run {page number i mid : Nat} {ps₀ : List Param} {setter : Msg} (P : Client.Protocol)
    (h : List (Int × Ev)) (s s' : Sys) (hs : Sound page number ps₀ i mid setter s)
    (ha : ∀ x ∈ h, Allowed page number ps₀ i mid setter x.2) (hr : run P s h = .ok s') :
    Sound page number ps₀ i mid setter s' := by
  induction h generalizing s with
  | nil => simp only [run, Except.ok.injEq] at hr; rw [← hr]; exact hs
  | cons x h ih =>
    obtain ⟨now, e⟩ := x
    simp only [run] at hr
    cases he : step P s now e with
    | error e => rw [he] at hr; simp at hr
    | ok s1 =>
      rw [he] at hr
      exact ih s1 (sound_step hs P now e (ha (now, e) (by simp)) he).1 (fun x hx => ha x (by simp [hx])) hr

theorem track_run {page number i mid : Nat} {ps₀ : List Param} {setter : Msg} (P : Client.Protocol)
    (h : List (Int × Ev)) (s s' : Sys) (hs : Sound page number ps₀ i mid setter s)
    (hperm : ∃ r ∈ s.py.client.requests, r.mapping = mid ∧ r.lifetime = none)
    (ha : ∀ x ∈ h, Allowed page number ps₀ i mid setter x.2) (hl : Along P (Healthy i) s h)
    (ht : ∃ n, Good page number s.params i n ∧ Track page number ps₀ i mid s n)
    (hr : run P s h = .ok s') : Healthy i s' ∧ ∃ n, Good page number s'.params i n ∧ Track page number ps₀ i mid s' n := by
  induction h generalizing s with
  | nil => simp only [run, Except.ok.injEq] at hr; rw [← hr]; exact ⟨hl, ht⟩
  | cons x h ih =>
    obtain ⟨now, e⟩ := x
    simp only [run] at hr
    cases he : step P s now e with
    | error e => rw [he] at hr; simp at hr
    | ok s1 =>
      rw [he] at hr
      obtain ⟨l1, l2⟩ := hl
      rw [he] at l2
      have l3 : Healthy i s1 := by
        cases h with
        | nil => exact l2
        | cons y h => exact l2.1
      obtain ⟨k1, k2⟩ := sound_step hs P now e (ha (now, e) (by simp)) he
      obtain ⟨r, p1, p2, p3⟩ := hperm
      obtain ⟨r', q1, q2, q3⟩ := k2 r p1 p3
      obtain ⟨n, t1, t2⟩ := ht
      exact ih s1 k1 ⟨r', q1, by rw [q2, p2], q3⟩ (fun x hx => ha x (by simp [hx])) l2
        (track_step hs r p1 p2 p3 P now e (ha (now, e) (by simp)) he l1 l3 n t1 t2) hr

end PySwitch.Kemper.Synced
