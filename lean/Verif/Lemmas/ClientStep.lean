import Verif.Lemmas.ClientInv
namespace PySwitch.Client
open PySwitch.Wire PySwitch.Mapping PySwitch.Client.Spec

/-- What stays of a mapping over all calls. -/
structure Keeps (P : Protocol) (op : Op) (mid : Nat) (m m' : Mapping) : Prop where
  response : m'.response = m.response
  type : m'.type = m.type
  twoPart : m'.twoPart = m.twoPart
  request : (m'.request = m.request ∧ m'.depends = m.depends) ∨
    (m'.request = .none ∧ m'.depends = none ∧ P.isBidirectional mid = true ∧ ∃ l, op = .register mid l)

theorem Keeps.refl (P : Protocol) (op : Op) (mid : Nat) (m : Mapping) : Keeps P op mid m m :=
  ⟨rfl, rfl, rfl, .inl ⟨rfl, rfl⟩⟩

theorem keeps_shape {P : Protocol} {op : Op} {mid : Nat} {m m' m'' : Mapping} (h : Keeps P op mid m m')
    (hs : shape m'' = shape m') : Keeps P op mid m m'' := by
  rcases m'' with ⟨⟩
  rcases m' with ⟨⟩
  simp only [shape, Mapping.mk.injEq] at hs
  obtain ⟨h1, h2, h3, h4⟩ := h
  refine ⟨?_, ?_, ?_, ?_⟩ <;> simp_all

/-- The base state of a call: after the parts of the call which do not touch the requests. -/
structure Base (P : Protocol) (op : Op) (st s₀ : State) : Prop where
  requests : s₀.requests = st.requests
  cleanup : s₀.cleanup = st.cleanup
  maxLifetime : s₀.maxLifetime = st.maxLifetime
  isCallback : s₀.isCallback = st.isCallback
  keeps : ∀ mid, Keeps P op mid (st.mappings mid) (s₀.mappings mid)

theorem Base.refl (P : Protocol) (op : Op) (st : State) : Base P op st st :=
  ⟨rfl, rfl, rfl, rfl, fun _ => .refl _ _ _ _⟩

theorem register_cases (P : Protocol) (st : State) (now : Int) (mid : Nat) (l : Option Nat) (st' : State)
    (es : List Eff) (h : registerBi P st now mid l = .ok (st', es)) :
    ∃ s₀, Base P (.register mid l) st s₀ ∧ s₀.deps = st.deps ∧
      (P.isBidirectional mid = true → (s₀.mappings mid).request = .none ∧ (s₀.mappings mid).depends = none) ∧
      ((st' = s₀ ∧ es = [] ∧ ((s₀.mappings mid).request.truthy = true ∨ (s₀.mappings mid).response.truthy = false)) ∨
       ((s₀.mappings mid).request.truthy = false ∧ (s₀.mappings mid).response.truthy = true ∧
        registerMapping s₀ now mid (l.map .ext) false = .ok (st', es))) := by
  simp only [registerBi] at h
  have key : ∀ s : State, register s now mid l = .ok (st', es) →
      ((st' = s ∧ es = [] ∧ ((s.mappings mid).request.truthy = true ∨ (s.mappings mid).response.truthy = false)) ∨
       ((s.mappings mid).request.truthy = false ∧ (s.mappings mid).response.truthy = true ∧
         registerMapping s now mid (l.map .ext) false = .ok (st', es))) := by
    intro s hs
    simp only [register] at hs
    split at hs
    · rename_i hc
      simp only [Bool.and_eq_true, Bool.not_eq_eq_eq_not, Bool.not_true] at hc
      exact .inr ⟨hc.1, hc.2, hs⟩
    · rename_i hc
      simp only [Except.ok.injEq, Prod.mk.injEq] at hs
      refine .inl ⟨hs.1.symm, hs.2.symm, ?_⟩
      simp only [Bool.and_eq_true, Bool.not_eq_eq_eq_not, Bool.not_true, not_and, Bool.not_eq_true] at hc
      cases hq : (s.mappings mid).request.truthy with
      | true => exact .inl rfl
      | false => exact .inr (hc hq)
  split at h
  · rename_i hb
    refine ⟨st.setMapping mid { st.mappings mid with request := .none, depends := none },
      ⟨rfl, rfl, rfl, rfl, ?_⟩, rfl, fun _ => ⟨by simp [State.setMapping], by simp [State.setMapping]⟩, key _ h⟩
    intro m
    simp only [State.setMapping]
    split
    · rename_i hm
      subst hm
      exact ⟨rfl, rfl, rfl, .inr ⟨rfl, rfl, hb, l, rfl⟩⟩
    · exact .refl _ _ _ _
  · rename_i hb
    exact ⟨st, .refl _ _ _, rfl, fun h' => absurd h' hb, key st h⟩

theorem step_cases (P : Protocol) (st : State) (now : Int) (op : Op) (st' : State) (es : List Eff)
    (h : step P st now op = .ok (st', es)) (hno : ∀ msg, op ≠ .receive msg) :
    ∃ s₀, Base P op st s₀ ∧ Evolves now s₀ st' := by
  cases op with
  | register mid l =>
    obtain ⟨s₀, hb, -, -, ⟨rfl, -⟩ | ⟨-, -, hr⟩⟩ := register_cases P st now mid l st' es h
    · exact ⟨st', hb, .refl _ _⟩
    · exact ⟨s₀, hb, (registerMapping_evolves _ _ _ _ _ _ _ hr).1⟩
  | request mid l =>
    simp only [step, request] at h
    split at h
    · simp only [Except.ok.injEq, Prod.mk.injEq] at h
      obtain ⟨rfl, rfl⟩ := h
      exact ⟨st, .refl _ _ _, .refl _ _⟩
    · split at h
      · refine ⟨_, ?_, (registerMapping_evolves _ _ _ _ _ _ _ h).1⟩
        split
        · exact .refl _ _ _
        · exact ⟨rfl, rfl, rfl, rfl, fun _ => .refl _ _ _ _⟩
      · exact ⟨st, .refl _ _ _, (registerMapping_evolves _ _ _ _ _ _ _ h).1⟩
  | set mid v =>
    simp only [step, setBi] at h
    cases hs : set st mid v with
    | error e => rw [hs] at h; simp at h
    | ok p =>
      rw [hs] at h
      obtain ⟨hst, -, f, hf⟩ := set_cases st mid v p.1 p.2 hs
      have hbase : Base P (.set mid v) st p.1 := by
        refine ⟨by rw [hst], by rw [hst], by rw [hst], by rw [hst], ?_⟩
        intro i
        rw [hf i]
        split
        · exact ⟨rfl, rfl, rfl, .inl ⟨rfl, rfl⟩⟩
        · exact .refl _ _ _ _
      refine ⟨p.1, hbase, ?_⟩
      simp only at h
      split at h
      · split at h
        · simp only [Except.ok.injEq, Prod.mk.injEq] at h
          obtain ⟨rfl, rfl⟩ := h
          exact .refl _ _
        · split at h
          · simp at h
          · rename_i i hi st2 es2 hn
            simp only [Except.ok.injEq, Prod.mk.injEq] at h
            obtain ⟨rfl, rfl⟩ := h
            have hev := evolves_setMapping now p.1 mid { p.1.mappings mid with value := some (toVal v) } rfl
            unfold notifyListeners at hn
            split at hn
            · simp only [Except.ok.injEq, Prod.mk.injEq] at hn
              obtain ⟨rfl, rfl⟩ := hn
              exact hev
            · split at hn
              · simp at hn
              · exact hev.trans (notify_spec _ _ _ _ _ _ hn).1
      · simp only [Except.ok.injEq, Prod.mk.injEq] at h
        obtain ⟨rfl, rfl⟩ := h
        exact .refl _ _
  | receive msg => exact absurd rfl (hno msg)
  | connectionLost =>
    simp only [step, Except.ok.injEq] at h
    refine ⟨st, .refl _ _ _, ?_⟩
    obtain ⟨h1, h2⟩ := connectionLost_state P st
    rw [h] at h1 h2
    simp only at h1 h2
    rw [h1]
    refine ⟨?_, rfl, rfl, rfl, fun i r h => ⟨r, h, .refl r⟩, ?_, fun h => h, fun h => h, rfl⟩
    · intro mid
      obtain ⟨v, hv⟩ := h2 mid
      rw [hv]
      rfl
    · intro i r' hl hi
      have := (List.getElem?_eq_some_iff.1 hi).1
      simp only at this
      omega

theorem afterCleanup_keeps (P : Protocol) (op : Op) (st : State) (now : Int) (ho : AllOpen st.requests) (mid : Nat) :
    Keeps P op mid (st.mappings mid) ((afterCleanup st now).1.mappings mid) := by
  rw [(afterCleanup_spec st now ho).2.2.2.2.2.2 mid]
  split
  · exact ⟨rfl, rfl, rfl, .inl ⟨rfl, rfl⟩⟩
  · exact .refl _ _ _ _

/-- How the requests of two consecutive states are related. -/
structure Rel (now : Int) (L : Nat) (rs rs' : List Req) : Prop where
  permanent : ∀ r ∈ rs, r.lifetime = none → ∃ r' ∈ rs', r'.mapping = r.mapping ∧ r'.lifetime = none ∧
    ∃ ext, r'.listeners = r.listeners.map (· ++ ext)
  back : ∀ r' ∈ rs', (∃ r ∈ rs, r'.mapping = r.mapping ∧ r'.lifetime = r.lifetime ∧
    ∃ ext, r'.listeners = r.listeners.map (· ++ ext)) ∨ r'.lifetime = none ∨ r'.lifetime = some ⟨L, now⟩

theorem rel_of_evolves {now : Int} {st s : State} (ho : AllOpen st.requests) (he : Evolves now st s) :
    Rel now st.maxLifetime st.requests (cleanupRequests s).requests := by
  refine ⟨?_, ?_⟩
  · intro r hr hl
    obtain ⟨i, hi⟩ := List.mem_iff_getElem?.1 hr
    obtain ⟨r', h1, h2⟩ := he.old i r hi
    rcases h2.listeners with ⟨-, h3⟩ | ⟨ext, h3⟩
    · rw [hl] at h3; simp at h3
    · refine ⟨r', ?_, h2.mapping, by rw [h2.lifetime, hl], ext, h3⟩
      simp only [cleanupRequests, List.mem_filter]
      refine ⟨List.mem_of_getElem? h1, ?_⟩
      have := ho r hr
      rw [h3]
      simpa using this
  · intro r' hr'
    simp only [cleanupRequests, List.mem_filter] at hr'
    obtain ⟨i, hi⟩ := List.mem_iff_getElem?.1 hr'.1
    by_cases hlen : st.requests.length ≤ i
    · exact .inr (he.fresh i r' hlen hi).2
    · have hr : st.requests[i]? = some st.requests[i] := List.getElem?_eq_getElem (by omega)
      obtain ⟨r'', h1, h2⟩ := he.old i _ hr
      rw [hi] at h1
      simp only [Option.some.injEq] at h1
      subst h1
      refine .inl ⟨_, List.mem_of_getElem? hr, h2.mapping, h2.lifetime, ?_⟩
      rcases h2.listeners with ⟨h3, -⟩ | h3
      · rw [h3] at hr'; simp at hr'
      · exact h3

theorem cleanup_of_open (st : State) (h : AllOpen st.requests) : (cleanupRequests st).requests = st.requests := by
  simp only [cleanupRequests, List.filter_eq_self]
  exact h

theorem step_rel (P : Protocol) (st : State) (now : Int) (op : Op) (st' : State) (es : List Eff)
    (h : step P st now op = .ok (st', es)) (hw : WF st) :
    Rel now st.maxLifetime st.requests st'.requests ∧ st'.maxLifetime = st.maxLifetime ∧
    st'.isCallback = st.isCallback ∧
    (∀ mid, Keeps P op mid (st.mappings mid) (st'.mappings mid)) ∧
    (st'.cleanup = st.cleanup ∨ (st'.cleanup = (st.cleanup.exceeded now).2 ∧ ((st.cleanup.exceeded now).1 = true →
      ∀ r' ∈ st'.requests, ∀ p, r'.lifetime = some p → now ≤ p.lastReset + p.interval))) := by
  have hw' := wf_step P st now op st' es h hw
  by_cases hop : ∃ msg, op = .receive msg
  · obtain ⟨msg, rfl⟩ := hop
    simp only [step] at h
    cases hr : receive st now msg with
    | error e => rw [hr] at h; simp at h
    | ok p =>
      rw [hr] at h
      simp only [Except.ok.injEq, Prod.mk.injEq] at h
      obtain ⟨rfl, rfl⟩ := h
      obtain ⟨a1, a2, a3, a4, a5, a6, a7⟩ := afterCleanup_spec st now hw.isOpen
      have hsub : ∀ r ∈ (afterCleanup st now).1.requests, r ∈ st.requests := by
        intro r hr
        rw [a1] at hr
        split at hr
        · exact (List.mem_filter.1 hr).1
        · exact hr
      have hperm : ∀ r ∈ st.requests, r.lifetime = none → r ∈ (afterCleanup st now).1.requests := by
        intro r hr hl
        rw [a1]
        split
        · exact List.mem_filter.2 ⟨hr, by simp [expired, hl]⟩
        · exact hr
      have main : ∀ s, Evolves now (afterCleanup st now).1 s →
          Rel now st.maxLifetime st.requests (cleanupRequests s).requests ∧
          s.maxLifetime = st.maxLifetime ∧ s.isCallback = st.isCallback ∧
          (∀ mid, Keeps P (.receive msg) mid (st.mappings mid) (s.mappings mid)) ∧
          s.cleanup = (st.cleanup.exceeded now).2 ∧ ((st.cleanup.exceeded now).1 = true →
            ∀ r' ∈ (cleanupRequests s).requests, ∀ p, r'.lifetime = some p → now ≤ p.lastReset + p.interval) := by
        intro s he
        have hrel := rel_of_evolves (wf_afterCleanup st now hw).isOpen he
        rw [a3] at hrel
        refine ⟨⟨fun r hr hl => hrel.permanent r (hperm r hr hl) hl, ?_⟩, by rw [he.maxLifetime, a3],
          by rw [he.isCallback, a5], fun mid => keeps_shape (afterCleanup_keeps P _ st now hw.isOpen mid) (he.shape mid),
          by rw [he.cleanup, a2], ?_⟩
        rotate_left
        · intro hex r' hr' p hp
          rcases hrel.back r' hr' with ⟨r, h1, -, h2, -⟩ | h1 | h1
          · rw [a1, if_pos hex] at h1
            have h3 := (List.mem_filter.1 h1).2
            rw [h2] at hp
            simp only [expired, hp, PeriodCounter.exceeded] at h3
            by_cases hlt : p.lastReset + p.interval < now
            · simp [hlt] at h3
            · omega
          · rw [h1] at hp; simp at hp
          · rw [h1] at hp
            simp only [Option.some.injEq] at hp
            subst hp
            simp only
            omega
        intro r' hr'
        rcases hrel.back r' hr' with ⟨r, h1, h2⟩ | h1
        · exact .inl ⟨r, hsub r h1, h2⟩
        · exact .inr h1
      rcases receive_cases st now msg p.1 p.2.1 p.2.2 hr with ⟨-, h1, -⟩ | ⟨m, s, es', -, h1, h2, -⟩
      · obtain ⟨m1, m2, m3, m4, m5⟩ := main p.1 (by rw [h1]; exact .refl _ _)
        rw [cleanup_of_open p.1 hw'.isOpen] at m1 m5
        exact ⟨m1, m2, m3, m4, .inr m5⟩
      · obtain ⟨m1, m2, m3, m4, m5⟩ := main s (receiveLoop_evolves _ _ _ _ _ _ _ _ h1).1
        rw [h2]
        exact ⟨m1, m2, m3, m4, .inr m5⟩
  · obtain ⟨s₀, hb, he⟩ := step_cases P st now op st' es h (fun msg hm => hop ⟨msg, hm⟩)
    have hrel := rel_of_evolves (st := s₀) (by rw [hb.requests]; exact hw.isOpen) he
    rw [cleanup_of_open st' hw'.isOpen, hb.maxLifetime, hb.requests] at hrel
    exact ⟨hrel, by rw [he.maxLifetime, hb.maxLifetime], by rw [he.isCallback, hb.isCallback],
      fun mid => keeps_shape (hb.keeps mid) (he.shape mid), .inl (by rw [he.cleanup, hb.cleanup])⟩

/-- Induction over a history. -/
theorem run_induction (P : Protocol) (I : Int → State → Prop)
    (hstep : ∀ (t now : Int) (st : State) (op : Op) (st' : State) (es : List Eff), t ≤ now → WF st → I t st →
      step P st now op = .ok (st', es) → I now st')
    (ops : List (Int × Op)) (t : Int) (st st' : State) (ess : List (List Eff)) (hw : WF st)
    (h : run P st ops = .ok (st', ess)) (hm : (t :: ops.map Prod.fst).Pairwise (· ≤ ·)) (hi : I t st) :
    I ((ops.getLast?.map Prod.fst).getD t) st' ∧ WF st' := by
  induction ops generalizing st ess t with
  | nil =>
    simp only [run, Except.ok.injEq, Prod.mk.injEq] at h
    rw [← h.1]
    exact ⟨by simpa using hi, hw⟩
  | cons o ops ih =>
    obtain ⟨now, op⟩ := o
    simp only [run] at h
    cases hs : step P st now op with
    | error e => rw [hs] at h; simp at h
    | ok p =>
      rw [hs] at h
      simp only at h
      cases hr : run P p.1 ops with
      | error e => rw [hr] at h; simp at h
      | ok q =>
        rw [hr] at h
        simp only [Except.ok.injEq, Prod.mk.injEq] at h
        obtain ⟨rfl, rfl⟩ := h
        simp only [List.map_cons, List.pairwise_cons] at hm
        have hi' := hstep t now st op p.1 p.2 (hm.1 now (by simp)) hw hi hs
        have := ih now p.1 q.2 (wf_step P st now op p.1 p.2 hs hw) hr (by
          rw [List.pairwise_cons]; exact hm.2) hi'
        have e : ((((now, op) :: ops).getLast?.map Prod.fst).getD t) = ((ops.getLast?.map Prod.fst).getD now) := by
          cases ops with
          | nil => simp
          | cons x xs =>
            rw [List.getLast?_cons_cons, List.getLast?_eq_some_getLast (by simp)]
            rfl
        rw [e]
        exact this

/-- Induction over a history without looking at the clock. -/
theorem run_induction' (P : Protocol) (I : State → Prop)
    (hstep : ∀ (now : Int) (st : State) (op : Op) (st' : State) (es : List Eff), WF st → I st →
      step P st now op = .ok (st', es) → I st')
    (ops : List (Int × Op)) (st st' : State) (ess : List (List Eff)) (hw : WF st)
    (h : run P st ops = .ok (st', ess)) (hi : I st) : I st' := by
  induction ops generalizing st ess with
  | nil =>
    simp only [run, Except.ok.injEq, Prod.mk.injEq] at h
    rw [← h.1]
    exact hi
  | cons o ops ih =>
    obtain ⟨now, op⟩ := o
    simp only [run] at h
    cases hs : step P st now op with
    | error e => rw [hs] at h; simp at h
    | ok p =>
      rw [hs] at h
      simp only at h
      cases hr : run P p.1 ops with
      | error e => rw [hr] at h; simp at h
      | ok q =>
        rw [hr] at h
        simp only [Except.ok.injEq, Prod.mk.injEq] at h
        obtain ⟨rfl, rfl⟩ := h
        exact ih p.1 q.2 (wf_step P st now op p.1 p.2 hs hw) hr (hstep now st op p.1 p.2 hw hi hs)

/-- The invariant on times. -/
structure Timed (L : Nat) (t : Int) (st : State) : Prop where
  max : st.maxLifetime = L
  interval : st.cleanup.interval = L / 2
  life : ∀ r ∈ st.requests, ∀ p, r.lifetime = some p → p.interval = L ∧ p.lastReset ≤ t ∧
    st.cleanup.lastReset ≤ p.lastReset + L
  last : st.cleanup.lastReset ≤ t

theorem timed_step (P : Protocol) (L : Nat) (t now : Int) (st : State) (op : Op) (st' : State) (es : List Eff)
    (ht : t ≤ now) (hw : WF st) (hi : Timed L t st) (h : step P st now op = .ok (st', es)) : Timed L now st' := by
  obtain ⟨hrel, hmax, -, -, hcl⟩ := step_rel P st now op st' es h hw
  have hcl' : st'.cleanup.interval = L / 2 ∧ st'.cleanup.lastReset ≤ now := by
    rcases hcl with h1 | ⟨h1, -⟩
    · rw [h1]
      exact ⟨hi.interval, Int.le_trans hi.last ht⟩
    · rw [h1]
      simp only [PeriodCounter.exceeded]
      split
      · exact ⟨hi.interval, Int.le_refl _⟩
      · exact ⟨hi.interval, Int.le_trans hi.last ht⟩
  refine ⟨hmax.trans hi.max, hcl'.1, ?_, hcl'.2⟩
  intro r' hr' p hp
  rcases hrel.back r' hr' with ⟨r, h1, -, h2, -⟩ | h1 | h1
  · rw [h2] at hp
    obtain ⟨i1, i2, i3⟩ := hi.life r h1 p hp
    refine ⟨i1, Int.le_trans i2 ht, ?_⟩
    rcases hcl with hc | ⟨hc, hc'⟩
    · rw [hc]; exact i3
    · rw [hc]
      simp only [PeriodCounter.exceeded]
      split
      · rename_i hx
        have := hc' (by simp [PeriodCounter.exceeded, hx]) r' hr' p (by rw [h2]; exact hp)
        rw [i1] at this
        exact this
      · exact i3
  · rw [h1] at hp; simp at hp
  · rw [h1] at hp
    simp only [Option.some.injEq] at hp
    subst hp
    refine ⟨by simp [hi.max], Int.le_refl _, ?_⟩
    have := hcl'.2
    simp only
    omega

theorem timed_initial (f : Nat → Mapping) (L : Nat) (cb : Nat → Bool) : Timed L 0 (initial f L cb) :=
  ⟨rfl, rfl, by simp [initial], by simp [initial]⟩

/-- In every reachable state. -/
theorem timed_run (P : Protocol) (f : Nat → Mapping) (L : Nat) (cb : Nat → Bool) (ops : List (Int × Op)) (st : State)
    (ess : List (List Eff)) (h : run P (initial f L cb) ops = .ok (st, ess)) (hm : Monotone ops) :
    Timed L (lastTime ops) st ∧ WF st :=
  run_induction P (Timed L) (fun t now st op st' es h1 h2 h3 h4 => timed_step P L t now st op st' es h1 h2 h3 h4)
    ops 0 _ st ess (wf_initial f L cb) h hm (timed_initial f L cb)

end PySwitch.Client
