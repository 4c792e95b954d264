import Verif.Lemmas.ClientDep
import Verif.Props.Client
/-
Properties C25 to C27: dependencies and bidirectional communication.
-/
namespace PySwitch.Props
open PySwitch.Wire PySwitch.Mapping PySwitch.Mapping.Spec PySwitch.Client PySwitch.Client.Spec

/-- The dependency listener of a parameter can only be attached to its trigger. -/
theorem at_run (P : Protocol) (f : Nat → Mapping) (L : Nat) (cb : Nat → Bool) (orig src : Nat)
    (hf : (f orig).depends = some src) (ops : List (Int × Op)) (st : State) (ess : List (List Eff))
    (h : run P (initial f L cb) ops = .ok (st, ess)) : At src orig st := by
  refine (run_induction' P (fun st => At src orig st ∧
    ((st.mappings orig).depends = some src ∨ (st.mappings orig).depends = none)) ?_ ops _ st ess
    (wf_initial f L cb) h ⟨by simp [At, initial], .inl hf⟩).1
  intro now st op st' es hw hi hs
  refine ⟨?_, ?_⟩
  · cases op with
    | register mid l =>
      obtain ⟨s₀, hb, -, -, ⟨rfl, -⟩ | ⟨-, -, hr⟩⟩ := register_cases P st now mid l st' es hs
      · intro r hr
        rw [hb.requests] at hr
        exact hi.1 r hr
      · refine registerMapping_at src orig _ _ _ _ _ _ _ hr ?_ ?_
        · intro r hr
          rw [hb.requests] at hr
          exact hi.1 r hr
        · intro hx
          cases l <;> simp at hx
    | request mid l =>
      simp only [step, request] at hs
      split at hs
      · simp only [Except.ok.injEq, Prod.mk.injEq] at hs
        rw [← hs.1]; exact hi.1
      · split at hs
        · rename_i d hd
          refine registerMapping_at src orig _ _ _ _ _ _ _ hs ?_ ?_
          · split
            · exact hi.1
            · exact hi.1
          · intro hx
            simp only [Option.some.injEq, Lst.dep.injEq] at hx
            subst hx
            rcases hi.2 with h2 | h2
            · rw [h2] at hd
              simpa using hd.symm
            · rw [h2] at hd
              simp at hd
        · refine registerMapping_at src orig _ _ _ _ _ _ _ hs hi.1 ?_
          intro hx
          cases l <;> simp at hx
    | set mid v =>
      simp only [step, setBi] at hs
      cases hset : Client.set st mid v with
      | error e => rw [hset] at hs; simp at hs
      | ok p =>
        rw [hset] at hs
        have hreq : p.1.requests = st.requests := by rw [(set_cases st mid v p.1 p.2 hset).1]
        have ha : At src orig p.1 := by
          intro r hr
          rw [hreq] at hr
          exact hi.1 r hr
        simp only at hs
        split at hs
        · split at hs
          · simp only [Except.ok.injEq, Prod.mk.injEq] at hs
            rw [← hs.1]; exact ha
          · split at hs
            · simp at hs
            · rename_i i _ st2 es2 hn
              simp only [Except.ok.injEq, Prod.mk.injEq] at hs
              rw [← hs.1]
              unfold notifyListeners at hn
              split at hn
              · simp only [Except.ok.injEq, Prod.mk.injEq] at hn
                rw [← hn.1]; exact ha
              · split at hn
                · simp at hn
                · exact notify_at src orig _ _ _ _ _ _ hn ha
        · simp only [Except.ok.injEq, Prod.mk.injEq] at hs
          rw [← hs.1]; exact ha
    | receive msg =>
      simp only [step] at hs
      cases hr : receive st now msg with
      | error e => rw [hr] at hs; simp at hs
      | ok p =>
        rw [hr] at hs
        simp only [Except.ok.injEq, Prod.mk.injEq] at hs
        obtain ⟨rfl, rfl⟩ := hs
        have ha : At src orig (afterCleanup st now).1 := by
          intro r hr
          rw [(afterCleanup_spec st now hw.isOpen).1] at hr
          split at hr
          · exact hi.1 r (List.mem_filter.1 hr).1
          · exact hi.1 r hr
        rcases receive_cases st now msg p.1 p.2.1 p.2.2 hr with ⟨-, h1, -⟩ | ⟨m, s, es', -, h1, h2, -⟩
        · rw [h1]; exact ha
        · rw [h2]
          have := receiveLoop_induct (At src orig) now m
            (fun st i r st' es b hr hp hi => parseReq_at src orig st now i m st' es b r hr hp hi) _ _ _ _ _ _ h1 ha
          intro r hr
          exact this r (List.mem_filter.1 hr).1
    | connectionLost =>
      simp only [step, Except.ok.injEq] at hs
      have := (connectionLost_state P st).1
      rw [hs] at this
      simp only at this
      intro r hr
      rw [this] at hr
      exact hi.1 r hr
  · rcases ((step_rel P st now op st' es hs hw).2.2.2.1 orig).request with ⟨-, h1⟩ | ⟨-, h1, -⟩
    · rw [h1]; exact hi.2
    · exact .inr h1

theorem not_done_of_not_answers (m : Mapping) (hp : m.twoPart = false) (t : Msg) (ht : m.response = .one t)
    (hg : GoodTemplate t) (msg : Msg) (ha : ¬ Answers msg t) (m' : Mapping) : reaction m msg ≠ .done m' := by
  have hv := (C17_attribution m hp t ht hg msg).2 ha
  simp only [reaction, ht, Response.truthy, hv]
  simp

theorem done_of_answers (m : Mapping) (hp : m.twoPart = false) (t : Msg) (ht : m.response = .one t)
    (hg : GoodTemplate t) (msg : Msg) (ha : Answers msg t) :
    ∃ v, reaction m msg = .done { m with value := some v } := by
  obtain ⟨v, hv⟩ := (C17_attribution m hp t ht hg msg).1 ha
  refine ⟨v, ?_⟩
  simp only [reaction, ht, Response.truthy, hv, resultFinished, hp]
  rfl

/-- The dependency of a parameter as the client keeps it: the trigger value seen last and the component which
has asked for the parameter. -/
def dependency (st : State) (orig : Nat) : Option Dep := st.deps.find? (fun d => d.orig == orig)

/-- C25: the parameter `orig` depends on `src` and has been asked for. When an answer for the trigger `src`
arrives, its request message `q` is sent exactly once if the value of the trigger differs from the one seen
last and the parameter is not waited for already; it is not sent if the value is the same or if an answer is
pending. After a change, the parameter is waited for, and the component which has asked for it first is among
its listeners (unless the same message was the answer to it, too).
Missing for the full property: the other components asking for it, see `C25_second_listener_lost`. -/
theorem C25_trigger_partial (P : Protocol) (f : Nat → Mapping) (L : Nat) (cb : Nat → Bool) (ops : List (Int × Op))
    (st : State) (ess : List (List Eff)) (h : run P (initial f L cb) ops = .ok (st, ess))
    (orig src : Nat) (hf : (f orig).depends = some src) (d : Dep) (hd : dependency st orig = some d)
    (q : Msg) (hq : (st.mappings orig).request = .one q)
    (hother : ∀ o, o ≠ orig → q ∉ messages (st.mappings o).request)
    (r : Req) (hent : entry st src = some r) (ls : List Lst) (hls : r.listeners = some ls) (hdl : .dep orig ∈ ls)
    (now : Int) (hlife : ∀ p, r.lifetime = some p → now ≤ p.lastReset + p.interval)
    (hplain : (st.mappings src).twoPart = false) (t : Msg) (ht : (st.mappings src).response = .one t)
    (hg : GoodTemplate t) (msg : Msg) (ha : Answers msg t) (st' : State) (es : List Eff) (b : Bool)
    (hrec : receive st now (some msg) = .ok (st', es, b)) :
    ∃ v, (st'.mappings src).value = some v ∧
      dependency st' orig = some { d with last := some v } ∧
      (some v = d.last → es.count (.send q) = 0) ∧
      (some v ≠ d.last → entry st orig = none → es.count (.send q) = 1) ∧
      (some v ≠ d.last → ∀ ro, entry st orig = some ro →
        (∀ p, ro.lifetime = some p → now ≤ p.lastReset + p.interval) → es.count (.send q) = 0) ∧
      (some v ≠ d.last → (st.mappings orig).twoPart = false →
        ∀ t', (st.mappings orig).response = .one t' → GoodTemplate t' → ¬ Answers msg t' →
        ∃ r' ls', entry st' orig = some r' ∧ r'.listeners = some ls' ∧ ∀ n, d.listener = some n → .ext n ∈ ls') := by
  have hw := wf_run P ops _ st ess h (wf_initial f L cb)
  have hat := at_run P f L cb orig src hf ops st ess h
  obtain ⟨i, -, h2, hm⟩ := entry_some hent
  have hrm := List.mem_of_getElem? h2
  obtain ⟨hsh, -, -, key⟩ := receive_at st hw now msg st' es b hrec r hrm hlife ls hls
  obtain ⟨a1, a2, a3, a4, a5, a6, a7⟩ := afterCleanup_spec st now hw.isOpen
  have hwc := wf_afterCleanup st now hw
  rw [hm] at hsh key
  have keep : ∀ mid, Keeps P (.receive (some msg)) mid (st.mappings mid) ((afterCleanup st now).1.mappings mid) :=
    fun mid => afterCleanup_keeps P _ st now hw.isOpen mid
  have keepq : ∀ mid, ((afterCleanup st now).1.mappings mid).request = (st.mappings mid).request := by
    intro mid
    rcases (keep mid).request with ⟨h, -⟩ | ⟨-, -, -, l, h⟩
    · exact h
    · simp at h
  obtain ⟨v, hre⟩ := done_of_answers ((afterCleanup st now).1.mappings src)
    ((keep src).twoPart.trans hplain) t ((keep src).response.trans ht) hg msg ha
  rw [hre] at key
  simp only at key
  have hown : Own (afterCleanup st now).1 orig q :=
    ⟨by rw [keepq]; exact hq, fun o ho => by rw [keepq]; exact hother o ho⟩
  have hnex : expired now r = false := by
    simp only [expired]
    cases hl : r.lifetime with
    | none => rfl
    | some p =>
      have := hlife p hl
      simp only [PeriodCounter.exceeded]
      rw [if_neg (by omega)]
  have hmem : r ∈ (afterCleanup st now).1.requests := by
    rw [a1]
    split
    · exact List.mem_filter.2 ⟨hrm, by simp [hnex]⟩
    · exact hrm
  have hatc : At src orig (afterCleanup st now).1 := by
    intro x hx
    rw [a1] at hx
    split at hx
    · exact hat x (List.mem_filter.1 hx).1
    · exact hat x hx
  rcases receive_cases st now (some msg) st' es b hrec with ⟨hx, -⟩ | ⟨m, s, es', hmm, hl, rfl, rfl⟩
  · simp at hx
  simp only [Option.some.injEq] at hmm
  subst hmm
  obtain ⟨j, hj⟩ := List.mem_iff_getElem?.1 hmem
  have hjl := (List.getElem?_eq_some_iff.1 hj).1
  have htrig := receiveLoop_trig src orig q now msg _ _ 0 s es' b hl hatc hown hwc.nodup hwc.lnodup j r (by omega)
    (by omega) hj hm ls hls hdl d (by simp only [dep, a4]; exact hd) _ hre
  have hc0 : (afterCleanup st now).2.count (.send q) = 0 := by
    rw [a6, List.count_eq_zero]
    split
    · simp
    · simp
  have hval : (s.mappings src).value = some v := by
    have := key.1
    change s.mappings src = _ at this
    rw [this]
  refine ⟨v, hval, ?_, ?_, ?_, ?_, ?_⟩
  · exact htrig.dep
  · intro hv
    rw [List.count_append, hc0, (htrig.same hv).1]
  · intro hv hn
    have : ¬ Pend (afterCleanup st now).1 orig := by
      intro hp
      have hnn := (findReq_none _ _).1 (entry_none hn)
      apply hnn
      simp only [Pend, a1] at hp
      split at hp
      · exact (List.filter_sublist.map Req.mapping).subset hp
      · exact hp
    rw [List.count_append, hc0, (htrig.new hv this).1]
  · intro hv ro hro hlo
    obtain ⟨k, -, h4, h5⟩ := entry_some hro
    have hpend : Pend (afterCleanup st now).1 orig := by
      have hnexo : expired now ro = false := by
        simp only [expired]
        cases hl : ro.lifetime with
        | none => rfl
        | some p =>
          have := hlo p hl
          simp only [PeriodCounter.exceeded]
          rw [if_neg (by omega)]
      refine List.mem_map.2 ⟨ro, ?_, h5⟩
      rw [a1]
      split
      · exact List.mem_filter.2 ⟨List.mem_of_getElem? h4, by simp [hnexo]⟩
      · exact List.mem_of_getElem? h4
    rw [List.count_append, hc0, (htrig.again hv hpend).1]
  · intro hv hpo t' ht' hg' hna
    obtain ⟨ro, hro, hmo, hlo⟩ := htrig.has hv
    have hopen : OpenAt orig s := by
      refine (receiveLoop_induct (fun st => OpenAt orig st ∧ shape (st.mappings orig) = shape (st.mappings orig) ∧
        (st.mappings orig).twoPart = false ∧ (st.mappings orig).response = .one t') now msg ?_ _ _ _ _ _ _ hl
        ⟨fun x hx _ => hwc.isOpen x hx, rfl, (keep orig).twoPart.trans hpo, (keep orig).response.trans ht'⟩).1
      intro st₁ i₁ r₁ st₂ es₂ b₂ hr₁ hp₁ hi₁
      have hk := (parseReq_evolves st₁ now i₁ msg st₂ es₂ b₂ r₁ hr₁ hp₁).1.shape orig
      have hkk := keeps_shape (P := P) (op := .connectionLost) (mid := 0) (Keeps.refl _ _ _ _) hk
      refine ⟨(parseReq_open orig (st₁.mappings orig) msg ?_ now st₁ i₁ r₁ st₂ es₂ b₂ hr₁ hp₁ ⟨hi₁.1, rfl⟩).1, rfl,
        hkk.twoPart.trans hi₁.2.2.1, hkk.response.trans hi₁.2.2.2⟩
      intro m hms m'
      have hkm := keeps_shape (P := P) (op := .connectionLost) (mid := 0) (Keeps.refl _ _ _ _) hms
      exact not_done_of_not_answers m (hkm.twoPart.trans hi₁.2.2.1) t' (hkm.response.trans hi₁.2.2.2) hg' msg hna m'
    obtain ⟨ls', hls'⟩ := Option.isSome_iff_exists.1 (hopen ro hro hmo)
    refine ⟨ro, ls', ?_, hls', fun n hn => hlo ls' hls' n hn⟩
    have hroc : ro ∈ (cleanupRequests s).requests := by
      simp only [cleanupRequests, List.mem_filter]
      exact ⟨hro, by simp [hls']⟩
    have hnd : ((cleanupRequests s).requests.map Req.mapping).Nodup :=
      (wf_cleanupRequests hwc (receiveLoop_evolves _ _ _ _ _ _ _ _ hl).1).nodup
    obtain ⟨k, hk⟩ := List.mem_iff_getElem?.1 hroc
    rw [entry_eq, ← hmo, findReq_of_mem _ hnd k ro hk]
    exact hk

/-- C25: a message which does not answer the trigger does not cause a request of the dependent parameter. -/
theorem C25_no_trigger (P : Protocol) (f : Nat → Mapping) (L : Nat) (cb : Nat → Bool) (ops : List (Int × Op))
    (st : State) (ess : List (List Eff)) (h : run P (initial f L cb) ops = .ok (st, ess))
    (orig src : Nat) (hf : (f orig).depends = some src)
    (q : Msg) (hq : (st.mappings orig).request = .one q)
    (hother : ∀ o, o ≠ orig → q ∉ messages (st.mappings o).request) (now : Int)
    (hplain : (st.mappings src).twoPart = false) (t : Msg) (ht : (st.mappings src).response = .one t)
    (hg : GoodTemplate t) (msg : Option Msg) (ha : ∀ m, msg = some m → ¬ Answers m t) (st' : State) (es : List Eff)
    (b : Bool) (hrec : receive st now msg = .ok (st', es, b)) :
    es.count (.send q) = 0 ∧ dependency st' orig = dependency st orig := by
  have hw := wf_run P ops _ st ess h (wf_initial f L cb)
  have hat := at_run P f L cb orig src hf ops st ess h
  obtain ⟨a1, a2, a3, a4, a5, a6, a7⟩ := afterCleanup_spec st now hw.isOpen
  have hwc := wf_afterCleanup st now hw
  have keep : ∀ mid, Keeps P (.receive msg) mid (st.mappings mid) ((afterCleanup st now).1.mappings mid) :=
    fun mid => afterCleanup_keeps P _ st now hw.isOpen mid
  have keepq : ∀ mid, ((afterCleanup st now).1.mappings mid).request = (st.mappings mid).request := by
    intro mid
    rcases (keep mid).request with ⟨h, -⟩ | ⟨-, -, -, l, h⟩
    · exact h
    · simp at h
  have hown : Own (afterCleanup st now).1 orig q :=
    ⟨by rw [keepq]; exact hq, fun o ho => by rw [keepq]; exact hother o ho⟩
  have hatc : At src orig (afterCleanup st now).1 := by
    intro x hx
    rw [a1] at hx
    split at hx
    · exact hat x (List.mem_filter.1 hx).1
    · exact hat x hx
  have hc0 : (afterCleanup st now).2.count (.send q) = 0 := by
    rw [a6, List.count_eq_zero]
    split
    · simp
    · simp
  rcases receive_cases st now msg st' es b hrec with ⟨-, rfl, rfl, -⟩ | ⟨m, s, es', rfl, hl, rfl, rfl⟩
  · exact ⟨hc0, by simp only [dependency, a4]⟩
  · have := receiveLoop_quiet src orig q now m _ _ 0 s es' b hl hatc hown hwc.nodup (.inr (fun m' =>
      not_done_of_not_answers _ ((keep src).twoPart.trans hplain) t ((keep src).response.trans ht) hg m (ha m rfl) m'))
    refine ⟨by rw [List.count_append, hc0, this.count], ?_⟩
    have hd := this.dep
    simp only [dep, a4] at hd
    exact hd

/-- Two parameters as the rig name (1) and the rig date (0) of the Kemper: the name depends on the date. -/
def exampleDep : Nat → Mapping := fun i =>
  if i = 1 then
    { request := .one (.sysex [0, 32, 51] [2, 127, 67, 0, 0, 1]),
      response := .one (.sysex [0, 32, 51] [0, 0, 3, 0, 0, 1]), type := .string, depends := some 0 }
  else
    { request := .one (.sysex [0, 32, 51] [2, 127, 67, 0, 0, 3]),
      response := .one (.sysex [0, 32, 51] [0, 0, 3, 0, 0, 3]), type := .string }

/-- The hypotheses of `C25_trigger_partial` are met: after a request of the name, the date is waited for; its
answer triggers the request of the name. -/
example : ∃ st ess, run plain (initial exampleDep 2000 (fun _ => true)) [(5, .request 1 (some 7))] = .ok (st, ess) ∧
    dependency st 1 = some ⟨1, none, some 7⟩ ∧
    entry st 0 = some ⟨0, some [.dep 1], some ⟨2000, 5⟩⟩ ∧ entry st 1 = none ∧
    ess = [[.send (.sysex [0, 32, 51] [2, 127, 67, 0, 0, 3])]] ∧
    ∃ st', receive st 9 (some (.sysex [0, 32, 51] [0, 0, 3, 0, 0, 3, 50, 0]))
      = .ok (st', [.send (.sysex [0, 32, 51] [2, 127, 67, 0, 0, 1])], true) :=
  ⟨_, _, rfl, rfl, rfl, rfl, rfl, _, rfl⟩

/-- The code does not meet the rest of C25: of two components asking for the same dependent parameter, only the
first one gets to know the answer. The second one (8) is never called, and nothing is pending at the end. -/
theorem C25_second_listener_lost :
    ∃ st ess, run plain (initial exampleDep 2000 (fun _ => true))
      [(5, .request 1 (some 7)), (6, .request 1 (some 8)),
       (9, .receive (some (.sysex [0, 32, 51] [0, 0, 3, 0, 0, 3, 50, 0]))),
       (12, .receive (some (.sysex [0, 32, 51] [0, 0, 3, 0, 0, 1, 65, 66, 0])))] = .ok (st, ess) ∧
      st.requests = [] ∧
      ess = [[.send (.sysex [0, 32, 51] [2, 127, 67, 0, 0, 3])], [],
        [.send (.sysex [0, 32, 51] [2, 127, 67, 0, 0, 1])], [.changed 7 1 (some (.str [65, 66]))]] :=
  ⟨_, _, rfl, rfl, rfl⟩

/-- The code does not report the end of a request whose trigger does not answer: the component which has asked
for the parameter (7) is not informed at all. -/
theorem C25_termination_lost :
    ∃ st ess, run plain (initial exampleDep 2000 (fun _ => true))
      [(5, .request 1 (some 7)), (4000, .receive none)] = .ok (st, ess) ∧
      st.requests = [] ∧ ess = [[.send (.sysex [0, 32, 51] [2, 127, 67, 0, 0, 3])], []] :=
  ⟨_, _, rfl, rfl, rfl⟩

/-- C26: once a bidirectional parameter has been registered, its request message `q` (not used by other
parameters) is never sent again by any later call (`set` sends the set messages only, see C21). -/
theorem C26_never_polled (P : Protocol) (f : Nat → Mapping) (L : Nat) (cb : Nat → Bool) (ops : List (Int × Op))
    (st : State) (ess : List (List Eff)) (h : run P (initial f L cb) ops = .ok (st, ess))
    (mid : Nat) (hb : P.isBidirectional mid = true) (l : Option Nat) (t₀ : Int) (st₁ : State) (es₁ : List Eff)
    (hreg : step P st t₀ (.register mid l) = .ok (st₁, es₁)) (q : Msg)
    (hq : ∀ o, o ≠ mid → q ∉ messages (f o).request)
    (ops₂ : List (Int × Op)) (st₂ : State) (ess₂ : List (List Eff)) (h₂ : run P st₁ ops₂ = .ok (st₂, ess₂))
    (now : Int) (op : Op) (hop : ∀ m v, op ≠ .set m v) (st₃ : State) (es : List Eff)
    (hs : step P st₂ now op = .ok (st₃, es)) : .send q ∉ es ∧ .send q ∉ es₁ := by
  have hw := wf_run P ops _ st ess h (wf_initial f L cb)
  have hw₁ := wf_step P st t₀ _ st₁ es₁ hreg hw
  have hw₂ := wf_run P ops₂ _ st₂ ess₂ h₂ hw₁
  -- the requests of the other mappings stay or vanish
  have hI : ∀ o, (st.mappings o).request = (f o).request ∨ (st.mappings o).request = .none := by
    intro o
    refine run_induction' P (fun st => (st.mappings o).request = (f o).request ∨ (st.mappings o).request = .none)
      ?_ ops _ st ess (wf_initial f L cb) h (.inl rfl)
    intro now st op st' es hw hi hs
    rcases ((step_rel P st now op st' es hs hw).2.2.2.1 o).request with ⟨h1, -⟩ | ⟨h1, -⟩
    · rw [h1]; exact hi
    · exact .inr h1
  have hreq₁ : (st₁.mappings mid).request = .none := by
    obtain ⟨s₀, -, -, hr, ⟨rfl, -⟩ | ⟨-, -, hrm⟩⟩ := register_cases P st t₀ mid l st₁ es₁ hreg
    · exact (hr hb).1
    · rw [(registerMapping_evolves _ _ _ _ _ _ _ hrm).2.1]
      exact (hr hb).1
  have hI₁ : (st₁.mappings mid).request = .none ∧
      ∀ o, (st₁.mappings o).request = (f o).request ∨ (st₁.mappings o).request = .none := by
    refine ⟨hreq₁, ?_⟩
    intro o
    rcases ((step_rel P st t₀ _ st₁ es₁ hreg hw).2.2.2.1 o).request with ⟨h1, -⟩ | ⟨h1, -⟩
    · rw [h1]; exact hI o
    · exact .inr h1
  have hI₂ : (st₂.mappings mid).request = .none ∧
      ∀ o, (st₂.mappings o).request = (f o).request ∨ (st₂.mappings o).request = .none := by
    refine run_induction' P (fun st => (st.mappings mid).request = .none ∧
      ∀ o, (st.mappings o).request = (f o).request ∨ (st.mappings o).request = .none) ?_ ops₂ _ st₂ ess₂ hw₁ h₂ hI₁
    intro now st op st' es hw hi hs
    have hk := (step_rel P st now op st' es hs hw).2.2.2.1
    refine ⟨?_, fun o => ?_⟩
    · rcases (hk mid).request with ⟨h1, -⟩ | ⟨h1, -⟩
      · rw [h1]; exact hi.1
      · exact h1
    · rcases (hk o).request with ⟨h1, -⟩ | ⟨h1, -⟩
      · rw [h1]; exact hi.2 o
      · exact .inr h1
  have hno : .send q ∉ es := by
    intro hin
    obtain ⟨o, ho⟩ := step_sends P st₂ now op st₃ es hw₂ hs hop q hin
    by_cases hom : o = mid
    · subst hom
      rw [hI₂.1] at ho
      simp [messages] at ho
    · rcases hI₂.2 o with h1 | h1
      · rw [h1] at ho
        exact hq o hom ho
      · rw [h1] at ho
        simp [messages] at ho
  refine ⟨hno, ?_⟩
  obtain ⟨s₀, -, -, hr, ⟨-, rfl, -⟩ | ⟨-, -, hrm⟩⟩ := register_cases P st t₀ mid l st₁ es₁ hreg
  · simp
  · rcases registerMapping_cases _ _ _ _ _ _ _ hrm with ⟨-, -, rfl⟩ | ⟨-, rfl, -⟩ <;> simp

theorem permanent_run (P : Protocol) (ops : List (Int × Op)) (st st' : State) (ess : List (List Eff)) (hw : WF st)
    (h : run P st ops = .ok (st', ess)) (mid n : Nat)
    (hi : ∃ r ∈ st.requests, r.mapping = mid ∧ r.lifetime = none ∧ ∃ ls, r.listeners = some ls ∧ .ext n ∈ ls) :
    ∃ r ∈ st'.requests, r.mapping = mid ∧ r.lifetime = none ∧ ∃ ls, r.listeners = some ls ∧ .ext n ∈ ls := by
  refine run_induction' P (fun st => ∃ r ∈ st.requests, r.mapping = mid ∧ r.lifetime = none ∧
    ∃ ls, r.listeners = some ls ∧ .ext n ∈ ls) ?_ ops _ st' ess hw h hi
  intro now st op st' es hw hi hs
  obtain ⟨r, h1, h2, h3, ls, h4, h5⟩ := hi
  obtain ⟨r', h6, h7, h8, ext, h9⟩ := (step_rel P st now op st' es hs hw).1.permanent r h1 h3
  exact ⟨r', h6, h7.trans h2, h8, ls ++ ext, by rw [h9, h4]; rfl, by simp [h5]⟩

/-- C26: after the registration of a bidirectional parameter with a listener, every update message received
at any later time reaches the listener exactly once, with the new value. The hypothesis `hfresh` says that no
one-shot request for the parameter is pending at the time of the registration; without it the property does
not hold, see `C26_late_registration_lost`. -/
theorem C26_updates_partial (P : Protocol) (f : Nat → Mapping) (L : Nat) (cb : Nat → Bool) (ops : List (Int × Op))
    (st : State) (ess : List (List Eff)) (h : run P (initial f L cb) ops = .ok (st, ess))
    (mid n : Nat) (hb : P.isBidirectional mid = true) (t₀ : Int) (st₁ : State) (es₁ : List Eff)
    (hreg : step P st t₀ (.register mid (some n)) = .ok (st₁, es₁))
    (hfresh : ∀ r, entry st mid = some r → r.lifetime = none)
    (t : Msg) (hplain : (f mid).twoPart = false) (ht : (f mid).response = .one t) (hg : GoodTemplate t)
    (ops₂ : List (Int × Op)) (st₂ : State) (ess₂ : List (List Eff)) (h₂ : run P st₁ ops₂ = .ok (st₂, ess₂))
    (now : Int) (msg : Msg) (ha : Answers msg t) (st₃ : State) (es : List Eff) (b : Bool)
    (hrec : receive st₂ now (some msg) = .ok (st₃, es, b)) :
    ∃ v, (st₃.mappings mid).value = some v ∧ (changes mid es).count (n, some v) = 1 ∧
      (∀ w, (n, w) ∈ changes mid es → w = some v) := by
  have hw := wf_run P ops _ st ess h (wf_initial f L cb)
  have hw₁ := wf_step P st t₀ _ st₁ es₁ hreg hw
  have hI : (st.mappings mid).twoPart = false ∧ (st.mappings mid).response = .one t := by
    refine run_induction' P (fun st => (st.mappings mid).twoPart = false ∧ (st.mappings mid).response = .one t)
      ?_ ops _ st ess (wf_initial f L cb) h ⟨hplain, ht⟩
    intro now st op st' es hw hi hs
    have hk := (step_rel P st now op st' es hs hw).2.2.2.1 mid
    exact ⟨hk.twoPart.trans hi.1, hk.response.trans hi.2⟩
  have hper₁ : ∃ r ∈ st₁.requests, r.mapping = mid ∧ r.lifetime = none ∧ ∃ ls, r.listeners = some ls ∧ .ext n ∈ ls := by
    obtain ⟨s₀, hbase, -, hr, ⟨rfl, -, hx⟩ | ⟨hqf, -, hrm⟩⟩ := register_cases P st t₀ mid (some n) st₁ es₁ hreg
    · rw [(hr hb).1, (hbase.keeps mid).response, hI.2] at hx
      simp [MsgField.truthy, Response.truthy] at hx
    · obtain ⟨r, h1, h2, h3⟩ := registerMapping_has _ _ _ _ _ _ _ hrm
      obtain ⟨ls, hls⟩ := Option.isSome_iff_exists.1 (hw₁.isOpen r h1)
      refine ⟨r, h1, h2, ?_, ls, hls, h3 ls hls n rfl⟩
      rcases registerMapping_cases _ _ _ _ _ _ _ hrm with ⟨h4, rfl, -⟩ | ⟨h4, -, h5⟩
      · simp only [List.mem_append, List.mem_singleton] at h1
        rcases h1 with h1 | rfl
        · exact absurd (List.mem_map.2 ⟨r, h1, h2⟩) h4
        · simp only [createRequest, hqf]
          rfl
      · have hlife : ∀ x ∈ s₀.requests, x.mapping = mid → x.lifetime = none := by
          intro x hx hxm
          rw [hbase.requests] at hx
          obtain ⟨k, hk⟩ := List.mem_iff_getElem?.1 hx
          have he : entry st mid = some x := by
            rw [entry_eq, ← hxm, findReq_of_mem _ hw.nodup k x hk]
            exact hk
          exact hfresh x he
        rcases h5 with rfl | ⟨i, r₀, y, ls₀, h6, h7, -, -, -, rfl⟩
        · exact hlife r h1 h2
        · rcases List.mem_or_eq_of_mem_set h1 with h8 | h8
          · exact hlife r h8 h2
          · subst h8
            exact hlife r₀ (List.mem_of_getElem? h6) h7
  obtain ⟨r, hr, hm, hl, ls, hls, hn⟩ := permanent_run P ops₂ st₁ st₂ ess₂ hw₁ h₂ mid n hper₁
  have hw₂ := wf_run P ops₂ _ st₂ ess₂ h₂ hw₁
  have hI₂ : (st₂.mappings mid).twoPart = false ∧ (st₂.mappings mid).response = .one t := by
    have hk₁ := (step_rel P st t₀ _ st₁ es₁ hreg hw).2.2.2.1 mid
    refine run_induction' P (fun st => (st.mappings mid).twoPart = false ∧ (st.mappings mid).response = .one t)
      ?_ ops₂ _ st₂ ess₂ hw₁ h₂ ⟨hk₁.twoPart.trans hI.1, hk₁.response.trans hI.2⟩
    intro now st op st' es hw hi hs
    have hk := (step_rel P st now op st' es hs hw).2.2.2.1 mid
    exact ⟨hk.twoPart.trans hi.1, hk.response.trans hi.2⟩
  obtain ⟨-, -, -, key⟩ := receive_at st₂ hw₂ now msg st₃ es b hrec r hr (by rw [hl]; simp) ls hls
  rw [hm] at key
  have keep := afterCleanup_keeps P (.receive (some msg)) st₂ now hw₂.isOpen mid
  obtain ⟨v, hre⟩ := done_of_answers _ (keep.twoPart.trans hI₂.1) t (keep.response.trans hI₂.2) hg msg ha
  rw [hre] at key
  simp only at key
  obtain ⟨k1, -, ⟨ext, k3, -, k5⟩, -⟩ := key
  refine ⟨v, by rw [k1], ?_, ?_⟩
  · rw [k3]
    have hinj : ∀ l : List Nat, (l.map (fun n => (n, some v))).count (n, some v) = l.count n := by
      intro l
      induction l with
      | nil => rfl
      | cons x xs ih => simp [List.count_cons, ih]
    rw [hinj]
    have hnd : (extOf (ls ++ ext)).Nodup := by
      generalize ls ++ ext = l at k5
      induction l with
      | nil => simp [extOf]
      | cons x l ih =>
        rw [List.nodup_cons] at k5
        cases x with
        | dep o => simpa [extOf] using ih k5.2
        | ext m =>
          have hi := ih k5.2
          simp only [extOf, List.filterMap_cons] at hi ⊢
          rw [List.nodup_cons]
          refine ⟨?_, hi⟩
          simp only [List.mem_filterMap, not_exists, not_and]
          rintro x hx
          cases x with
          | dep o => simp
          | ext m' =>
            simp only [Option.some.injEq]
            rintro rfl
            exact k5.1 hx
    rw [List.Nodup.count hnd, if_pos]
    simp only [extOf, List.mem_filterMap]
    exact ⟨.ext n, by simp [hn], rfl⟩
  · intro w hwm
    rw [k3] at hwm
    simp only [List.mem_map, Prod.mk.injEq] at hwm
    obtain ⟨_, -, -, h⟩ := hwm
    exact h.symm

/-- The mapping of the examples, handled by a bidirectional protocol. -/
def exampleBi : Protocol := ⟨fun i => i == 1, fun i => i == 1⟩

example : ∃ st ess, run exampleBi (initial exampleReq 2000 (fun _ => true)) [(5, .register 1 (some 7)),
      (6, .request 1 (some 8)), (9000, .receive (some (.sysex [0, 32, 51] [0, 0, 1, 0, 4, 1, 3, 5]))),
      (9001, .receive (some (.sysex [0, 32, 51] [0, 0, 1, 0, 4, 1, 3, 6])))] = .ok (st, ess) ∧
    ess = [[], [], [.changed 7 1 (some (.num 389))], [.changed 7 1 (some (.num 390))]] ∧
    (entry st 1).isSome := ⟨_, _, rfl, rfl, rfl⟩

/-- The code does not meet C26 without the hypothesis of `C26_updates_partial`: a registration while a one-shot
request is pending joins that request, and is lost with its answer: the second update does not reach the
listener (7). -/
theorem C26_late_registration_lost :
    ∃ st ess, run exampleBi (initial exampleReq 2000 (fun _ => true)) [(5, .request 1 (some 8)),
      (6, .register 1 (some 7)), (10, .receive (some (.sysex [0, 32, 51] [0, 0, 1, 0, 4, 1, 3, 5]))),
      (20, .receive (some (.sysex [0, 32, 51] [0, 0, 1, 0, 4, 1, 3, 6])))] = .ok (st, ess) ∧
    ess.drop 2 = [[.changed 8 1 (some (.num 389)), .changed 7 1 (some (.num 389))], []] ∧ st.requests = [] :=
  ⟨_, _, rfl, rfl, rfl⟩

/-- C27: if the value of a parameter is fed back locally, setting it sends its messages, and then every
registered listener of the parameter is called exactly once, in the order of registration, with the set value;
the value is visible in the parameter. -/
theorem C27_feedback (P : Protocol) (f : Nat → Mapping) (L : Nat) (cb : Nat → Bool) (ops : List (Int × Op))
    (st : State) (ess : List (List Eff)) (h : run P (initial f L cb) ops = .ok (st, ess))
    (mid : Nat) (hfb : P.feedbackValue mid = true) (r : Req) (hent : entry st mid = some r) (v : SetVal)
    (now : Int) (s : State) (sends : List Eff) (hset : Client.set st mid v = .ok (s, sends)) (st' : State)
    (es : List Eff) (hs : step P st now (.set mid v) = .ok (st', es)) :
    ∃ ls rest, r.listeners = some ls ∧ ls.Nodup ∧ es = sends ++ rest ∧ (∀ e ∈ sends, ∃ m, e = .send m) ∧
      changes mid rest = (extOf ls).map (fun n => (n, some (toVal v))) ∧
      (st'.mappings mid).value = some (toVal v) ∧
      (st.deps = [] → rest = (extOf ls).map (fun n => .changed n mid (some (toVal v)))) := by
  have hw := wf_run P ops _ st ess h (wf_initial f L cb)
  obtain ⟨i, h1, h2, h3⟩ := entry_some hent
  obtain ⟨ls, hls⟩ := Option.isSome_iff_exists.1 (hw.isOpen r (List.mem_of_getElem? h2))
  obtain ⟨c1, c2, fld, c3⟩ := set_cases st mid v s sends hset
  have hreq : s.requests = st.requests := by rw [c1]
  have hdeps : s.deps = st.deps := by rw [c1]
  simp only [step, setBi, hset, hfb, if_true, hreq, h1, notifyListeners] at hs
  rw [show (s.setMapping mid { s.mappings mid with value := some (toVal v) }).requests[i]? = some r by
    simp only [State.setMapping, hreq]; exact h2] at hs
  simp only [hls] at hs
  cases hn : notify (s.setMapping mid { s.mappings mid with value := some (toVal v) }) now r.mapping ls with
  | error e => rw [hn] at hs; simp at hs
  | ok p =>
    rw [hn] at hs
    simp only [Except.ok.injEq, Prod.mk.injEq] at hs
    obtain ⟨rfl, rfl⟩ := hs
    obtain ⟨n1, n2, n3, n4, n5⟩ := notify_spec _ _ _ _ _ _ hn
    rw [h3] at n3
    have hval : ((s.setMapping mid { s.mappings mid with value := some (toVal v) }).mappings mid).value
        = some (toVal v) := by simp [State.setMapping]
    rw [hval] at n3
    refine ⟨ls, p.2, hls, hw.lnodup r (List.mem_of_getElem? h2) ls hls, rfl, c2, n3, ?_, ?_⟩
    · rw [n2]; exact hval
    · intro hd
      rw [notify_noDeps _ _ _ _ (by simp only [State.setMapping, hdeps, hd]), h3, hval] at hn
      simp only [Except.ok.injEq] at hn
      rw [← hn]

/-- C27: without a registration the call fails with an exception after sending. -/
theorem C27_unregistered (P : Protocol) (st : State) (mid : Nat) (hfb : P.feedbackValue mid = true)
    (hent : entry st mid = none) (v : SetVal) (now : Int) (s : State) (sends : List Eff)
    (hset : Client.set st mid v = .ok (s, sends)) :
    step P st now (.set mid v) = .ok (s, sends ++ [.raised .exception]) := by
  obtain ⟨c1, -⟩ := set_cases st mid v s sends hset
  have hreq : s.requests = st.requests := by rw [c1]
  simp only [step, setBi, hset, hfb, if_true, hreq, entry_none hent]

/-- C27: parameters without local feedback are just sent. -/
theorem C27_no_feedback (P : Protocol) (st : State) (mid : Nat) (hfb : P.feedbackValue mid = false) (v : SetVal)
    (now : Int) : step P st now (.set mid v) = Client.set st mid v := by
  simp only [step, setBi, hfb]
  cases Client.set st mid v <;> rfl

/-- A CC parameter with local feedback. -/
def exampleFb : Nat → Mapping := fun _ => { set := .one (.cc 7 0 none), response := .one (.cc 7 0 none) }

example : ∃ st ess, run exampleBi (initial exampleFb 2000 (fun _ => true)) [(5, .register 1 (some 7)),
      (5, .register 1 (some 8)), (6, .set 1 (.one 33)), (7, .set 2 (.one 34))] = .ok (st, ess) ∧
    ess.drop 2 = [[.send (.cc 7 33 none), .changed 7 1 (some (.num 33)), .changed 8 1 (some (.num 33))],
      [.send (.cc 7 34 none)]] := ⟨_, _, rfl, rfl⟩

end PySwitch.Props
