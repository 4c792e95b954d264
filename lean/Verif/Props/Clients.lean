import Verif.Spec.Clients
/-!
C149: The emulator is connected to one client at a time.
C151: The emulator is connected to the client which has been chosen.
-/
namespace PySwitch.Props
open PySwitch.Clients

/-! ### One at a time -/

def c149_listeners : Option Wrapper → List (Nat × String)
  | some ⟨k, .port p⟩ => [(k, p)]
  | _ => []

def c149_timers : Option Wrapper → List Nat
  | some ⟨k, .virtual "kemper"⟩ => [k]
  | _ => []

theorem c149_timers_virtual (k : Nat) (c : String) : c149_timers (some ⟨k, .virtual c⟩) = if hasTimer c then [k] else [] := by
  unfold hasTimer
  by_cases h : c = "kemper"
  · subst h; rfl
  · rw [if_neg (by simpa using h)]
    unfold c149_timers
    split
    · rename_i heq; simp only [Option.some.injEq, Wrapper.mk.injEq, Target.virtual.injEq] at heq; exact absurd heq.2 h
    · rfl

def c149_one (s : State) : Prop :=
  s.listening = c149_listeners s.wrapper ∧ s.timers = c149_timers s.wrapper ∧
    (∀ k p, s.wrapper = some ⟨k, .port p⟩ → s.tab = none) ∧
    ∀ k c, s.wrapper = some ⟨k, .virtual c⟩ → s.tab = if c = "kemper" then some k else none

theorem c149_detachOld {s : State} (h : c149_one s) : s.detachOld.listening = [] ∧ s.detachOld.timers = [] := by
  obtain ⟨h1, h2, -, -⟩ := h
  unfold State.detachOld
  cases hw : s.wrapper with
  | none => rw [hw] at h1 h2; exact ⟨h1, h2⟩
  | some w =>
    rw [hw] at h1 h2
    obtain ⟨k, t⟩ := w
    cases t with
    | port p =>
      simp only [c149_listeners, c149_timers] at h1 h2
      simp [State.detach, h1, h2]
    | virtual c =>
      rw [c149_timers_virtual] at h2
      simp only [c149_listeners] at h1
      by_cases hc : hasTimer c <;> simp_all [State.detach]

theorem c149_setNone {s : State} (h : c149_one s) : (s.setWrapper none).listening = [] ∧ (s.setWrapper none).timers = [] := c149_detachOld h

theorem c149_connect (ports : List String) {s : State} (n : String) (h : c149_one s) : c149_one (s.connect ports n) := by
  obtain ⟨h1, h2⟩ := c149_setNone h
  unfold State.connect
  dsimp only
  split
  · split <;> exact ⟨h1, h2, fun _ _ e => by simp [State.setWrapper] at e, fun _ _ e => by simp [State.setWrapper] at e⟩
  · split
    · refine ⟨?_, ?_, ?_, ?_⟩
      · simp [State.setWrapper, State.newPort, State.detachOld, c149_listeners]
        exact h1
      · simp [State.setWrapper, State.newPort, State.detachOld, c149_timers]
        exact h2
      · intro _ _ _; rfl
      · intro _ _ e; simp [State.setWrapper] at e
    · exact ⟨h1, h2, fun _ _ e => by simp [State.setWrapper] at e, fun _ _ e => by simp [State.setWrapper] at e⟩

theorem c149_init (ports : List String) {s : State} (c : String) (h : c149_one s) : c149_one (s.init ports c) := by
  unfold State.init
  split
  · exact h
  · split
    · exact h
    · exact c149_connect ports _ h

theorem c149_attach {s : State} (k : Nat) (c : String) (h : c149_one s) : c149_one (s.attach k c) := by
  obtain ⟨h1, h2⟩ := c149_detachOld h
  unfold State.attach State.runTimer State.setWrapper
  by_cases hc : c = "kemper"
  · subst hc
    refine ⟨h1, ?_, ?_, ?_⟩
    · show s.detachOld.timers ++ [k] = [k]
      rw [h2]; rfl
    · intro _ _ e; exact absurd e (by simp [hasTimer])
    · intro k' c' e
      have : (⟨k, .virtual "kemper"⟩ : Wrapper) = ⟨k', .virtual c'⟩ := by simpa [hasTimer] using e
      cases this; rfl
  · have ht : hasTimer c = false := by simpa [hasTimer] using hc
    rw [ht]
    refine ⟨h1, ?_, ?_, ?_⟩
    · show s.detachOld.timers = _
      rw [h2]
      show [] = c149_timers (some ⟨k, .virtual c⟩)
      rw [c149_timers_virtual, ht]; rfl
    · intro _ _ e; exact absurd e (by simp)
    · intro k' c' e
      have : (⟨k, .virtual c⟩ : Wrapper) = ⟨k', .virtual c'⟩ := by simpa using e
      cases this
      show (if hasInterface c = true then some k else none) = _
      rw [if_neg hc, if_neg (by simpa [hasInterface] using hc)]

theorem c149_step (ports : List String) {s : State} (e : Ev) (h : c149_one s) : c149_one (s.step ports e) := by
  cases e with
  | load c => exact c149_init ports c h
  | choose v c => exact c149_init ports (s := { s with saved := some v }) c h
  | found k p =>
    simp only [State.step]
    split
    · exact c149_connect ports (s := { s with searches := s.searches.filter fun x => x.1 != k }) _ h
    · exact h
  | nothing k =>
    simp only [State.step]
    split
    · exact c149_connect ports (s := { s with searches := s.searches.filter fun x => x.1 != k }) _ h
    · exact h
  | created k =>
    simp only [State.step]
    split
    · exact c149_attach (s := { s with creating := s.creating.filter fun x => x.1 != k }) _ _ h
    · exact h
  | message p d => exact h

theorem c149_foldl (ports : List String) : ∀ (es : List Ev) (s : State), c149_one s → c149_one (es.foldl (State.step ports) s)
  | [], _, h => h
  | e :: es, _, h => c149_foldl ports es _ (c149_step ports e h)

theorem c149_run (ports : List String) (es : List Ev) : c149_one (run ports es) :=
  c149_foldl ports es {} ⟨rfl, rfl, fun _ _ e => by simp at e, fun _ _ e => by simp at e⟩

/-- Whatever is loaded, chosen, searched and created, in any order: the client the emulator uses is the only one which listens to a port, or has
a running timer, and a virtual client which is used is the one on the screen. -/
theorem C149_one_at_a_time (ports : List String) (es : List Ev) :
    (∀ k p, (k, p) ∈ (run ports es).listening ↔ (run ports es).wrapper = some ⟨k, .port p⟩) ∧
      (run ports es).listening.length ≤ 1 ∧
      (∀ k, k ∈ (run ports es).timers ↔ (run ports es).wrapper = some ⟨k, .virtual "kemper"⟩) ∧
      (run ports es).timers.length ≤ 1 ∧
      (∀ k p, (run ports es).wrapper = some ⟨k, .port p⟩ → (run ports es).tab = none) ∧
      ∀ k c, (run ports es).wrapper = some ⟨k, .virtual c⟩ → (run ports es).tab = if c = "kemper" then some k else none := by
  obtain ⟨h1, h2, h3, h4⟩ := c149_run ports es
  refine ⟨?_, ?_, ?_, ?_, h3, h4⟩
  · intro k p
    rw [h1]
    cases hw : (run ports es).wrapper with
    | none => simp [c149_listeners]
    | some w =>
      obtain ⟨k', t⟩ := w
      cases t with
      | port q => simp [c149_listeners, eq_comm]
      | virtual c => simp [c149_listeners]
  · rw [h1]
    unfold c149_listeners
    split <;> simp
  · intro k
    rw [h2]
    cases hw : (run ports es).wrapper with
    | none => simp [c149_timers]
    | some w =>
      obtain ⟨k', t⟩ := w
      cases t with
      | port q => simp [c149_timers]
      | virtual c =>
        rw [c149_timers_virtual]
        by_cases hc : c = "kemper"
        · subst hc; simp [hasTimer, eq_comm]
        · have ht : hasTimer c = false := by simpa [hasTimer] using hc
          simp [ht, hc]
  · rw [h2]
    unfold c149_timers
    split <;> simp

/-- A message of the port the emulator is connected to is put to its queue once, messages of other ports are not put anywhere. -/
theorem C149_messages (ports : List String) (es : List Ev) (p : String) (d : Nat) :
    (run ports (es ++ [.message p d])).log = (run ports es).log ++
      match (run ports es).wrapper with
      | some ⟨k, .port q⟩ => if q = p then [(k, d)] else []
      | _ => [] := by
  have h1 := (c149_run ports es).1
  unfold run at *
  rw [List.foldl_append]
  simp only [List.foldl_cons, List.foldl_nil, State.step]
  rw [h1]
  cases hw : (es.foldl (State.step ports) {}).wrapper with
  | none => rfl
  | some w =>
    obtain ⟨k', t⟩ := w
    cases t with
    | port q =>
      simp only [c149_listeners]
      by_cases h : q = p <;> simp [h]
    | virtual c => rfl

/-! ### The choice -/

theorem c149_saved_connect (ports : List String) (s : State) (n : String) : (s.connect ports n).saved = s.saved := by
  have hd : ∀ s : State, s.detachOld.saved = s.saved := by
    intro s
    unfold State.detachOld State.detach
    split
    · rfl
    · split
      · rfl
      · split <;> rfl
  unfold State.connect State.setWrapper State.newPort
  dsimp only
  split
  · split <;> exact hd s
  · split
    · simp only [hd]
    · exact hd s

theorem c149_saved_init (ports : List String) (s : State) (c : String) : (s.init ports c).saved = s.saved := by
  unfold State.init
  split
  · rfl
  · split
    · rfl
    · exact c149_saved_connect ports s _

theorem c149_saved_attach (s : State) (k : Nat) (c : String) : (s.attach k c).saved = s.saved := by
  unfold State.attach State.runTimer State.setWrapper State.detachOld State.detach
  dsimp only
  split <;> split
  · rfl
  · split
    · rfl
    · split <;> rfl
  · rfl
  · split
    · rfl
    · split <;> rfl

/-- The choice remembered for the next time is the last one. -/
theorem C149_remembered (ports : List String) (es : List Ev) : (run ports es).saved = lastChoice es := by
  suffices H : ∀ l : List Ev, (run ports l.reverse).saved = lastChoice l.reverse by simpa using H es.reverse
  intro l
  induction l with
  | nil => rfl
  | cons e l ih =>
    rw [List.reverse_cons]
    unfold run lastChoice at *
    rw [List.foldl_append, List.filterMap_append]
    cases e with
    | load c => simpa [State.step, c149_saved_init] using ih
    | choose v c => simp [State.step, c149_saved_init]
    | found k p =>
      simp only [List.foldl_cons, List.foldl_nil, State.step, List.filterMap_cons, List.filterMap_nil, List.append_nil]
      split
      · rw [c149_saved_connect]; exact ih
      · exact ih
    | nothing k =>
      simp only [List.foldl_cons, List.foldl_nil, State.step, List.filterMap_cons, List.filterMap_nil, List.append_nil]
      split
      · rw [c149_saved_connect]; exact ih
      · exact ih
    | created k =>
      simp only [List.foldl_cons, List.foldl_nil, State.step, List.filterMap_cons, List.filterMap_nil, List.append_nil]
      split
      · rw [c149_saved_attach]; exact ih
      · exact ih
    | message p d => simpa [State.step] using ih

theorem c149_same (s : State) : s.detachOld.searches = s.searches ∧ s.detachOld.creating = s.creating ∧ s.detachOld.next = s.next := by
  unfold State.detachOld State.detach
  split
  · exact ⟨rfl, rfl, rfl⟩
  · split
    · exact ⟨rfl, rfl, rfl⟩
    · split <;> exact ⟨rfl, rfl, rfl⟩

theorem c149_to_port (ports : List String) (s : State) (n : String) (h : isVirtual n = false) :
    (s.connect ports n).searches = s.searches ∧ (s.connect ports n).creating = s.creating ∧
      (s.connect ports n).wrapper.map Wrapper.target = if n ∈ ports then some (.port n) else none := by
  obtain ⟨h1, h2, -⟩ := c149_same s
  unfold State.connect
  rw [h]
  by_cases hn : n ∈ ports
  · simp only [hn, if_true, Bool.false_eq_true, if_false, State.setWrapper, State.newPort]
    exact ⟨h1, h2, rfl⟩
  · simp only [hn, Bool.false_eq_true, if_false, State.setWrapper]
    exact ⟨h1, h2, rfl⟩

theorem c149_names (c : String) : isVirtual ("virtual-" ++ c) = true ∧ clientOf ("virtual-" ++ c) = c := by
  constructor
  · simp [isVirtual, String.toList_append]
  · simp [clientOf, String.toList_append]

theorem c149_to_virtual (ports : List String) (s : State) (c : String) (h : c ∈ known) :
    (s.connect ports ("virtual-" ++ c)).searches = s.searches ∧
      (s.connect ports ("virtual-" ++ c)).creating = s.creating ++ [(s.next, c)] ∧
      (s.connect ports ("virtual-" ++ c)).wrapper = none := by
  obtain ⟨h1, h2, h3⟩ := c149_same s
  obtain ⟨n1, n2⟩ := c149_names c
  unfold State.connect
  rw [n1, n2]
  simp only [h, if_true, State.setWrapper]
  exact ⟨h1, by rw [h2, h3], trivial⟩

theorem c149_attached (s : State) (k : Nat) (c : String) :
    (s.attach k c).searches = s.searches ∧ (s.attach k c).creating = s.creating ∧ (s.attach k c).wrapper = some ⟨k, .virtual c⟩ := by
  obtain ⟨h1, h2, -⟩ := c149_same s
  unfold State.attach State.runTimer State.setWrapper
  dsimp only
  split <;> exact ⟨h1, h2, rfl⟩

/-- The state is as after a finished choice. -/
def c149_done (t : Option Target) (s : State) : Prop := s.Idle ∧ s.wrapper.map Wrapper.target = t

/-- The virtual client is being created. -/
def c149_creating (k : Nat) (c : String) (s : State) : Prop := s.searches = [] ∧ s.creating = [(k, c)] ∧ s.wrapper = none

theorem c149_done_step (ports : List String) (t : Option Target) (s : State) (e : Ev) (he : Passive e) (h : c149_done t s) :
    c149_done t (s.step ports e) := by
  obtain ⟨⟨h1, h2⟩, h3⟩ := h
  cases e with
  | load c => exact he.elim
  | choose v c => exact he.elim
  | found k p => simp only [State.step, h1, List.lookup]; exact ⟨⟨h1, h2⟩, h3⟩
  | nothing k => simp only [State.step, h1, List.lookup]; exact ⟨⟨h1, h2⟩, h3⟩
  | created k => simp only [State.step, h2, List.lookup]; exact ⟨⟨h1, h2⟩, h3⟩
  | message p d => exact ⟨⟨h1, h2⟩, h3⟩

theorem c149_done_run (ports : List String) (t : Option Target) :
    ∀ (es : List Ev) (s : State), (∀ e ∈ es, Passive e) → c149_done t s → c149_done t (es.foldl (State.step ports) s)
  | [], _, _, h => h
  | e :: es, s, he, h =>
    c149_done_run ports t es _ (fun x hx => he x (List.mem_cons_of_mem _ hx)) (c149_done_step ports t s e (he e List.mem_cons_self) h)

theorem c149_creating_run (ports : List String) (k : Nat) (c : String) :
    ∀ (es : List Ev) (s : State), (∀ e ∈ es, Passive e) → c149_creating k c s →
      c149_creating k c (es.foldl (State.step ports) s) ∨ c149_done (some (.virtual c)) (es.foldl (State.step ports) s)
  | [], _, _, h => .inl h
  | e :: es, s, he, h => by
    have he' : ∀ x ∈ es, Passive x := fun x hx => he x (List.mem_cons_of_mem _ hx)
    have hp := he e List.mem_cons_self
    obtain ⟨h1, h2, h3⟩ := h
    rw [List.foldl_cons]
    cases e with
    | load c => exact hp.elim
    | choose v c => exact hp.elim
    | found k' p =>
      refine c149_creating_run ports k c es _ he' ?_
      simp only [State.step, h1, List.lookup]; exact ⟨h1, h2, h3⟩
    | nothing k' =>
      refine c149_creating_run ports k c es _ he' ?_
      simp only [State.step, h1, List.lookup]; exact ⟨h1, h2, h3⟩
    | created k' =>
      by_cases hk : k' = k
      · subst hk
        refine .inr (c149_done_run ports _ es _ he' ?_)
        simp only [State.step, h2, List.lookup, beq_self_eq_true]
        obtain ⟨a1, a2, a3⟩ := c149_attached { s with creating := [(k', c)].filter fun x => x.1 != k' } k' c
        exact ⟨⟨a1.trans h1, a2.trans (by simp)⟩, by rw [a3]; rfl⟩
      · refine c149_creating_run ports k c es _ he' ?_
        simp only [State.step, h2, List.lookup, beq_eq_false_iff_ne.2 hk]; exact ⟨h1, h2, h3⟩
    | message p d => exact c149_creating_run ports k c es _ he' ⟨h1, h2, h3⟩

/-- Nothing is going on, and the user makes a choice, or a configuration is loaded when that choice has been the last one. Whatever then happens,
but other choices and loading: the emulator is never connected to anything else, and when nothing is going on it is connected to just what has
been chosen. No port may have a name which starts with "virtual". (Partial: see the witnesses below for choices during a search, and for such
names.) -/
theorem C151_chosen_partial (ports : List String) (names : ∀ p ∈ ports, ¬ "virtual".toList <+: p.toList) (es : List Ev) (v : String)
    (hv : Offered ports v) (hauto : v ≠ "auto" ∧ v ≠ "") (idle : (run ports es).Idle) (e : Ev) (c : String)
    (he : e = .choose v c ∨ e = .load c ∧ lastChoice es = some v) (after : List Ev) (passive : ∀ e ∈ after, Passive e) :
    let s := run ports (es ++ [e] ++ after)
    (s.wrapper = none ∨ Means ports v (s.wrapper.map Wrapper.target)) ∧ (s.Idle → Means ports v (s.wrapper.map Wrapper.target)) := by
  intro s
  have hs : ∃ s0 : State, s0.searches = [] ∧ s0.creating = [] ∧ s = after.foldl (State.step ports) (s0.connect ports v) := by
    have hn : ¬ (v = "auto" ∨ v = "") := fun h => h.elim hauto.1 hauto.2
    rcases he with he | ⟨he, hl⟩
    · refine ⟨{ run ports es with saved := some v }, idle.1, idle.2, ?_⟩
      simp only [s, he, run, List.foldl_append, List.foldl_cons, List.foldl_nil, State.step, State.init]
      rw [if_neg hn]
    · refine ⟨run ports es, idle.1, idle.2, ?_⟩
      have hsv : (run ports es).saved = some v := by rw [C149_remembered]; exact hl
      have hi : (run ports es).init ports c = (run ports es).connect ports v := by
        unfold State.init
        rw [hsv]
        exact if_neg hn
      rw [← hi]
      simp only [s, run, he, List.foldl_append, List.foldl_cons, List.foldl_nil, State.step]
  obtain ⟨s0, i1, i2, hs⟩ := hs
  have done : ∀ t, Means ports v t → c149_done t s →
      (s.wrapper = none ∨ Means ports v (s.wrapper.map Wrapper.target)) ∧ (s.Idle → Means ports v (s.wrapper.map Wrapper.target)) := by
    rintro t hm ⟨-, h⟩
    rw [h]
    exact ⟨.inr hm, fun _ => hm⟩
  by_cases hvirt : ∃ c ∈ known, v = "virtual-" ++ c
  · obtain ⟨c', hc, hvc⟩ := hvirt
    subst hvc
    obtain ⟨t1, t2, t3⟩ := c149_to_virtual ports s0 c' hc
    rcases c149_creating_run ports s0.next c' after _ passive ⟨t1.trans i1, by rw [t2, i2]; rfl, t3⟩ with h | h
    · rw [← hs] at h
      exact ⟨.inl h.2.2, fun hi => by have := hi.2; rw [h.2.1] at this; simp at this⟩
    · rw [← hs] at h
      exact done (some (.virtual c')) ⟨hc, rfl⟩ h
  · have hnv : isVirtual v = false := by
      rcases hv with hv | hv | hv
      · have := names v hv
        unfold isVirtual
        cases hb : "virtual".toList.isPrefixOf v.toList with
        | false => rfl
        | true => exact absurd (List.isPrefixOf_iff_prefix.1 hb) this
      · subst hv; decide
      · exact absurd hv hvirt
    obtain ⟨t1, t2, t3⟩ := c149_to_port ports s0 v hnv
    have hd := c149_done_run ports _ after _ passive ⟨⟨t1.trans i1, t2.trans i2⟩, t3⟩
    rw [← hs] at hd
    refine done _ ?_ hd
    by_cases hp : v ∈ ports
    · rw [if_pos hp]; exact ⟨rfl, hp⟩
    · rw [if_neg hp]; exact ⟨hp, fun c hc e => hvirt ⟨c, hc, e⟩⟩

theorem c149_search_run (ports : List String) (names : ∀ p ∈ ports, ¬ "virtual".toList <+: p.toList) (k : Nat) (c : String) (hc : c ∈ known)
    (t : Option Target) :
    ∀ (es : List Ev) (s : State), (∀ e ∈ es, Passive e) → (∀ k p, Ev.found k p ∈ es → p ∈ ports) →
      s.searches = [(k, c)] → s.creating = [] → s.wrapper.map Wrapper.target = t →
      match outcome k es with
      | none => (es.foldl (State.step ports) s).wrapper.map Wrapper.target = t ∧ ¬ (es.foldl (State.step ports) s).Idle
      | some none => (es.foldl (State.step ports) s).Idle → (es.foldl (State.step ports) s).wrapper.map Wrapper.target = some (.virtual c)
      | some (some p) => (es.foldl (State.step ports) s).wrapper.map Wrapper.target = some (.port p)
  | [], s, _, _, h1, _, h3 => ⟨h3, fun hi => by rw [List.foldl_nil] at hi; have := hi.1; rw [h1] at this; simp at this⟩
  | e :: es, s, he, hf, h1, h2, h3 => by
    have he' : ∀ x ∈ es, Passive x := fun x hx => he x (List.mem_cons_of_mem _ hx)
    have hf' : ∀ k p, Ev.found k p ∈ es → p ∈ ports := fun k p hx => hf k p (List.mem_cons_of_mem _ hx)
    have hp := he e List.mem_cons_self
    have ih := c149_search_run ports names k c hc t es
    rw [List.foldl_cons]
    cases e with
    | load c => exact hp.elim
    | choose v c => exact hp.elim
    | found k' p =>
      by_cases hk : k' = k
      · subst hk
        have ho : outcome k' (Ev.found k' p :: es) = some (some p) := by simp [outcome]
        rw [ho]
        have hpp := hf k' p List.mem_cons_self
        have hnv : isVirtual p = false := by
          have := names p hpp
          unfold isVirtual
          cases hb : "virtual".toList.isPrefixOf p.toList with
          | false => rfl
          | true => exact absurd (List.isPrefixOf_iff_prefix.1 hb) this
        simp only [State.step, h1, List.lookup, beq_self_eq_true]
        obtain ⟨t1, t2, t3⟩ := c149_to_port ports { s with searches := [(k', c)].filter fun x => x.1 != k' } p hnv
        rw [if_pos hpp] at t3
        exact (c149_done_run ports _ es _ he' ⟨⟨t1.trans (by simp), t2.trans h2⟩, t3⟩).2
      · have ho : outcome k (Ev.found k' p :: es) = outcome k es := by simp [outcome, hk]
        rw [ho]
        have : s.step ports (.found k' p) = s := by simp only [State.step, h1, List.lookup, beq_eq_false_iff_ne.2 hk]
        rw [this]
        exact ih s he' hf' h1 h2 h3
    | nothing k' =>
      by_cases hk : k' = k
      · subst hk
        have ho : outcome k' (Ev.nothing k' :: es) = some none := by simp [outcome]
        rw [ho]
        simp only [State.step, h1, List.lookup, beq_self_eq_true]
        obtain ⟨t1, t2, t3⟩ := c149_to_virtual ports { s with searches := [(k', c)].filter fun x => x.1 != k' } c hc
        rcases c149_creating_run ports s.next c es _ he' ⟨t1.trans (by simp), by rw [t2]; show s.creating ++ _ = _; rw [h2]; rfl, t3⟩ with h | h
        · intro hi
          have := hi.2
          rw [h.2.1] at this
          simp at this
        · exact fun _ => h.2
      · have ho : outcome k (Ev.nothing k' :: es) = outcome k es := by simp [outcome, hk]
        rw [ho]
        have : s.step ports (.nothing k') = s := by simp only [State.step, h1, List.lookup, beq_eq_false_iff_ne.2 hk]
        rw [this]
        exact ih s he' hf' h1 h2 h3
    | created k' =>
      have ho : outcome k (Ev.created k' :: es) = outcome k es := by simp [outcome]
      rw [ho]
      have : s.step ports (.created k') = s := by simp only [State.step, h2, List.lookup]
      rw [this]
      exact ih s he' hf' h1 h2 h3
    | message p d =>
      have ho : outcome k (Ev.message p d :: es) = outcome k es := by simp [outcome]
      rw [ho]
      exact ih _ he' hf' h1 h2 h3

/-- Nothing is going on, and a configuration is loaded with the automatic choice, or the user chooses it. There is one search. As long as it goes
on, the emulator stays connected as it is. When a port has been found, the emulator is connected to that. When nothing has been found, it is
connected to the virtual client of the configuration once that is there. -/
theorem C151_automatic (ports : List String) (names : ∀ p ∈ ports, ¬ "virtual".toList <+: p.toList) (es : List Ev)
    (idle : (run ports es).Idle) (e : Ev) (c : String) (hc : c ∈ known)
    (he : e = .choose "auto" c ∨ e = .load c ∧ (lastChoice es = none ∨ lastChoice es = some "auto" ∨ lastChoice es = some ""))
    (after : List Ev) (passive : ∀ e ∈ after, Passive e) (real : ∀ k p, Ev.found k p ∈ after → p ∈ ports) :
    let s := run ports (es ++ [e] ++ after)
    ∃ key, (run ports (es ++ [e])).searches = [(key, c)] ∧
      match outcome key after with
      | none => s.wrapper.map Wrapper.target = (run ports es).wrapper.map Wrapper.target ∧ ¬ s.Idle
      | some none => s.Idle → s.wrapper.map Wrapper.target = some (.virtual c)
      | some (some p) => s.wrapper.map Wrapper.target = some (.port p) := by
  intro s
  have h0 : (run ports (es ++ [e])).searches = [((run ports es).next, c)] ∧ (run ports (es ++ [e])).creating = [] ∧
      (run ports (es ++ [e])).wrapper = (run ports es).wrapper := by
    have hr : run ports (es ++ [e]) = (run ports es).step ports e := by simp [run]
    rw [hr]
    rcases he with he | ⟨he, hl⟩
    · rw [he]
      simp only [State.step, State.init, true_or, if_true]
      exact ⟨by rw [idle.1]; rfl, idle.2, trivial⟩
    · rw [he]
      rw [← C149_remembered ports] at hl
      simp only [State.step, State.init]
      rcases hl with hl | hl | hl
      · rw [hl]; exact ⟨by rw [idle.1]; rfl, idle.2, rfl⟩
      · rw [hl]; exact ⟨by simp only [true_or, if_true]; rw [idle.1]; rfl, idle.2, rfl⟩
      · rw [hl]; exact ⟨by simp only [or_true, if_true]; rw [idle.1]; rfl, idle.2, rfl⟩
  refine ⟨_, h0.1, ?_⟩
  have hs : s = after.foldl (State.step ports) (run ports (es ++ [e])) := by simp [s, run]
  rw [hs]
  exact c149_search_run ports names _ c hc _ after _ passive real h0.1 h0.2.1 (by rw [h0.2.2])

/-! ### Examples -/

/-- A Kemper is found, then the virtual one is chosen, then a port. -/
example :
    let ports := ["Kemper", "Piano"]
    let es : List Ev := [.load "kemper", .found 0 "Kemper", .choose "virtual-kemper" "kemper", .created 2]
    (run ports es).Idle ∧ (run ports es).wrapper = some ⟨2, .virtual "kemper"⟩ ∧ (run ports es).timers = [2] ∧ (run ports es).listening = [] ∧
      (run ports (es ++ [.choose "Piano" "kemper", .message "Piano" 5, .message "Kemper" 6])).log = [(3, 5)] ∧
      Offered ports "Piano" ∧ (∀ p ∈ ports, ¬ "virtual".toList <+: p.toList) := by
  refine ⟨?_, ?_, ?_, ?_, ?_, ?_, ?_⟩
  · unfold State.Idle; decide +kernel
  · decide +kernel
  · decide +kernel
  · decide +kernel
  · decide +kernel
  · exact .inl (by decide)
  · decide

/-- Nothing is found. -/
example :
    let es : List Ev := [.load "boomerang", .message "x" 1, .nothing 0, .created 1]
    outcome 0 es = some none ∧ (run ["x"] es).Idle ∧ (run ["x"] es).wrapper = some ⟨1, .virtual "boomerang"⟩ := by
  refine ⟨by decide +kernel, ?_, by decide +kernel⟩
  unfold State.Idle; decide +kernel

/-! ### Disagreements -/

/-- The user chooses not to be connected while the automatic search is still going on (it takes a second): when it is over, the emulator is
connected nevertheless, and stays so. -/
theorem C151_search_wins_witness :
    let s := run ["x"] [.load "kemper", .choose "Not connected" "kemper", .nothing 0, .created 1]
    s.Idle ∧ s.saved = some "Not connected" ∧ s.wrapper = some ⟨1, .virtual "kemper"⟩ ∧ ¬ Means ["x"] "Not connected" (s.wrapper.map Wrapper.target) := by
  refine ⟨?_, by decide +kernel, by decide +kernel, ?_⟩
  · unfold State.Idle; decide +kernel
  · have h : (run ["x"] [.load "kemper", .choose "Not connected" "kemper", .nothing 0, .created 1]).wrapper = some ⟨1, .virtual "kemper"⟩ := by
      decide +kernel
    show ¬ Means ["x"] "Not connected" (Option.map Wrapper.target (run ["x"] _).wrapper)
    rw [h]
    exact fun hm => absurd hm.2 (by decide +kernel)

/-- The same with a port: the user has chosen "Piano", and is connected to the Kemper found by the search of before. -/
theorem C151_search_wins_port_witness :
    let s := run ["Kemper", "Piano"] [.load "kemper", .choose "Piano" "kemper", .found 0 "Kemper"]
    s.saved = some "Piano" ∧ s.wrapper.map Wrapper.target = some (.port "Kemper") := by decide +kernel

/-- A port with a name which starts with "virtual" cannot be used. -/
theorem C151_name_witness :
    let s := run ["virtual bus"] [.choose "virtual bus" "kemper"]
    Offered ["virtual bus"] "virtual bus" ∧ Means ["virtual bus"] "virtual bus" (some (.port "virtual bus")) ∧ s.wrapper = none := by
  refine ⟨.inl (by decide), ⟨rfl, by decide⟩, by decide +kernel⟩

end PySwitch.Props
