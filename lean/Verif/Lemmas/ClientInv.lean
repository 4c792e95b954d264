import Verif.Lemmas.Client
namespace PySwitch.Client
open PySwitch.Wire PySwitch.Mapping PySwitch.Client.Spec

/-! ### The number of iterations of the receive loop -/

/-- Dependency listeners whose mapping has no request. -/
def free (st : State) : Nat :=
  (st.deps.map Dep.orig).countP (fun o => !(st.requests.map Req.mapping).contains o)

theorem countP_lt_of_imp {α : Type} (p q : α → Bool) (l : List α) (h : ∀ x ∈ l, q x → p x) (a : α) (ha : a ∈ l)
    (hp : p a) (hq : ¬ q a) : l.countP q + 1 ≤ l.countP p := by
  induction l with
  | nil => simp at ha
  | cons x l ih =>
    simp only [List.countP_cons]
    have hx := h x (by simp)
    rcases List.mem_cons.1 ha with rfl | ha
    · have : l.countP q ≤ l.countP p := List.countP_mono_left (fun y hy => h y (by simp [hy]))
      simp only [hp, hq, if_true]
      simp
      omega
    · have := ih (fun y hy => h y (by simp [hy])) ha
      by_cases hqx : q x = true
      · simp only [hqx, hx hqx, if_true]; omega
      · simp only [hqx]
        simp only [Bool.false_eq_true, if_false]
        omega

theorem registerMapping_free (st : State) (now : Int) (mid : Nat) (l : Option Lst) (send : Bool)
    (st' : State) (es : List Eff) (h : registerMapping st now mid l send = .ok (st', es))
    (hm : mid ∈ st.deps.map Dep.orig) : st'.requests.length + free st' ≤ st.requests.length + free st := by
  rcases registerMapping_cases st now mid l send st' es h with ⟨h1, rfl, rfl⟩ | ⟨h1, rfl, rfl | ⟨i, r, x, ls, hr, hmm, hl, hls, hx, rfl⟩⟩
  · simp only [free, List.length_append, List.length_singleton, List.map_append, List.map_cons, List.map_nil]
    have := countP_lt_of_imp (fun o => !(st.requests.map Req.mapping).contains o)
      (fun o => !(st.requests.map Req.mapping ++ [(createRequest st now mid l).mapping]).contains o)
      (st.deps.map Dep.orig) (by
        intro x _ hx
        simp only [List.contains_eq_mem, List.mem_append, Bool.not_eq_eq_eq_not, Bool.not_true,
          decide_eq_false_iff_not] at hx ⊢
        exact fun h => hx (.inl h)) mid hm (by simpa using h1) (by simp [createRequest])
    omega
  · exact Nat.le_refl _
  · have e : ((st.requests.set i { r with listeners := some (ls ++ [x]) }).map Req.mapping)
        = st.requests.map Req.mapping := map_mapping_set _ _ _ _ hr rfl
    simp only [free, List.length_set]
    rw [e]
    exact Nat.le_refl _

theorem depChanged_free (st : State) (now : Int) (orig src : Nat) (st' : State) (es : List Eff)
    (h : depChanged st now orig src = .ok (st', es)) :
    st'.requests.length + free st' ≤ st.requests.length + free st := by
  unfold depChanged at h
  split at h
  · simp only [Except.ok.injEq, Prod.mk.injEq] at h
    rw [h.1]
    exact Nat.le_refl _
  · rename_i d hd
    have horigs : (st.deps.map (fun d => if d.orig = orig then { d with last := (st.mappings src).value } else d)).map
        Dep.orig = st.deps.map Dep.orig := by
      rw [List.map_map]
      apply List.map_congr_left
      intro d _
      simp only [Function.comp]
      split <;> rfl
    split at h
    · have := registerMapping_free _ _ _ _ _ _ _ h (by
        simp only [horigs]
        have h1 := List.find?_some hd
        simp at h1
        exact List.mem_map.2 ⟨d, List.mem_of_find?_eq_some hd, h1⟩)
      simp only [free, horigs] at this ⊢
      exact this
    · simp only [Except.ok.injEq, Prod.mk.injEq] at h
      rw [h.1]
      exact Nat.le_refl _

theorem notify_free (now : Int) (src : Nat) (ls : List Lst) (st st' : State) (es : List Eff)
    (h : notify st now src ls = .ok (st', es)) :
    st'.requests.length + free st' ≤ st.requests.length + free st := by
  induction ls generalizing st st' es with
  | nil =>
    simp only [notify, Except.ok.injEq, Prod.mk.injEq] at h
    rw [h.1]
    exact Nat.le_refl _
  | cons l ls ih =>
    cases l with
    | ext n =>
      simp only [notify] at h
      cases hn : notify st now src ls with
      | error e => rw [hn] at h; simp at h
      | ok p =>
        rw [hn] at h
        simp only [Except.ok.injEq, Prod.mk.injEq] at h
        obtain ⟨rfl, rfl⟩ := h
        exact ih st p.1 p.2 hn
    | dep o =>
      simp only [notify] at h
      cases hd : depChanged st now o src with
      | error e => rw [hd] at h; simp at h
      | ok p =>
        rw [hd] at h
        simp only at h
        cases hn : notify p.1 now src ls with
        | error e => rw [hn] at h; simp at h
        | ok q =>
          rw [hn] at h
          simp only [Except.ok.injEq, Prod.mk.injEq] at h
          obtain ⟨rfl, rfl⟩ := h
          have h1 := depChanged_free st now o src p.1 p.2 hd
          have h2 := ih p.1 q.1 q.2 hn
          omega

theorem closeReq_free (st : State) (i : Nat) :
    (closeReq st i).requests.length + free (closeReq st i) = st.requests.length + free st := by
  unfold closeReq
  split
  · rfl
  · rename_i r hr
    split
    · have e : ((st.requests.set i { r with listeners := none }).map Req.mapping)
        = st.requests.map Req.mapping := map_mapping_set _ _ _ _ hr rfl
      simp only [free, List.length_set]
      rw [e]
    · rfl

theorem parseReq_free (st : State) (now : Int) (i : Nat) (msg : Msg) (st' : State) (es : List Eff) (b : Bool)
    (r : Req) (hr : st.requests[i]? = some r) (h : parseReq st now i msg = .ok (st', es, b)) :
    st'.requests.length + free st' ≤ st.requests.length + free st := by
  rcases parseReq_cases st now i msg st' es b r hr h with
    ⟨-, rfl, rfl, -⟩ | ⟨-, rfl, rfl, -⟩ | ⟨ls, m', -, -, hsh, rfl, rfl, -⟩ | ⟨ls, m', st'', -, -, hsh, hn, rfl, -⟩
  · exact Nat.le_refl _
  · exact Nat.le_refl _
  · exact Nat.le_refl _
  · rw [closeReq_free]
    exact notify_free now r.mapping ls (st.setMapping r.mapping m') st'' es hn

/-- The fuel of the receive loop is sufficient: more iterations would not change anything. -/
theorem receiveLoop_end (now : Int) (msg : Msg) (fuel : Nat) (st : State) (i : Nat)
    (hf : st.requests.length + free st ≤ i + fuel) (k : Nat) :
    receiveLoop now msg (fuel + k) st i = receiveLoop now msg fuel st i := by
  induction fuel generalizing st i with
  | zero =>
    have : ¬ i < st.requests.length := by omega
    cases k with
    | zero => rfl
    | succ k => simp [receiveLoop, this]
  | succ fuel ih =>
    rw [show fuel + 1 + k = (fuel + k) + 1 by omega]
    simp only [receiveLoop]
    by_cases hi : i < st.requests.length
    · rw [if_pos hi, if_pos hi]
      cases hp : parseReq st now i msg with
      | error e => rfl
      | ok p =>
        obtain ⟨st₁, es₁, b₁⟩ := p
        simp only
        have := parseReq_free st now i msg st₁ es₁ b₁ _ (List.getElem?_eq_getElem hi) hp
        rw [ih st₁ (i + 1) (by omega)]
    · rw [if_neg hi, if_neg hi]

theorem free_le (st : State) : free st ≤ st.deps.length := by
  have := List.countP_le_length (p := fun o => !(st.requests.map Req.mapping).contains o) (l := st.deps.map Dep.orig)
  simpa [free] using this

/-! ### Clean-up -/

theorem terminateLoop_spec (now : Int) (rs : List Req) (st : State) :
    (terminateLoop now rs st).2.2 = rs.map (fun r => if expired now r then { r with listeners := none } else r) ∧
    (terminateLoop now rs st).2.1 = (rs.filter (expired now)).flatMap
      (fun r => (extOf (r.listeners.getD [])).map (fun n => .terminated n r.mapping)) ∧
    (terminateLoop now rs st).1 = { st with mappings := (terminateLoop now rs st).1.mappings } ∧
    (∀ mid, (terminateLoop now rs st).1.mappings mid =
      if (rs.any (fun r => expired now r && (r.mapping == mid) &&
            (extOf (r.listeners.getD [])).any st.isCallback)) = true
      then { st.mappings mid with value := none } else st.mappings mid) := by
  induction rs generalizing st with
  | nil => simp [terminateLoop]
  | cons r rs ih =>
    simp only [terminateLoop]
    by_cases he : expired now r = true
    · rw [if_pos he]
      obtain ⟨h1, h2, h3, h4⟩ := ih (notifyTerminated st r).1
      have hst : (notifyTerminated st r).1 = { st with mappings := (notifyTerminated st r).1.mappings } := by
        simp only [notifyTerminated]
        cases r.listeners with
        | none => rfl
        | some ls =>
          simp only
          split <;> rfl
      have hes : (notifyTerminated st r).2 = (extOf (r.listeners.getD [])).map (fun n => .terminated n r.mapping) := by
        simp only [notifyTerminated]
        cases r.listeners <;> rfl
      have hmap : ∀ mid, (notifyTerminated st r).1.mappings mid =
          if ((r.mapping == mid) && (extOf (r.listeners.getD [])).any st.isCallback) = true
          then { st.mappings mid with value := none } else st.mappings mid := by
        intro mid
        simp only [notifyTerminated]
        cases r.listeners with
        | none => simp [extOf]
        | some ls =>
          simp only [Option.getD_some]
          by_cases hc : (extOf ls).any st.isCallback = true
          · rw [if_pos hc]
            simp only [State.setMapping]
            by_cases hm : mid = r.mapping
            · subst hm; simp [hc]
            · simp [hm, Ne.symm hm]
          · rw [if_neg hc]
            simp [hc]
      have hcb : (notifyTerminated st r).1.isCallback = st.isCallback := by rw [hst]
      refine ⟨?_, ?_, ?_, ?_⟩
      · simp [h1, he]
      · simp only [h2, hes, List.filter_cons, he, if_true, List.flatMap_cons]
      · rw [h3, hst]
      · intro mid
        rw [h4 mid, hcb, hmap mid]
        simp only [List.any_cons, he, Bool.true_and]
        by_cases ha : ((r.mapping == mid) && (extOf (r.listeners.getD [])).any st.isCallback) = true
        · simp only [ha, if_true, Bool.true_or]
          split <;> rfl
        · simp only [ha, Bool.false_or, if_false, Bool.false_eq_true]
    · rw [if_neg he]
      obtain ⟨h1, h2, h3, h4⟩ := ih st
      refine ⟨?_, ?_, h3, ?_⟩
      · simp [h1, he]
      · simp [h2, he]
      · intro mid
        rw [h4 mid]
        simp [he]

/-- The state and effects after the first part of `receive`. -/
def afterCleanup (st : State) (now : Int) : State × List Eff :=
  let e := st.cleanup.exceeded now
  let st₀ : State := { st with cleanup := e.2 }
  if e.1 then cleanupHanging st₀ now else (st₀, [])

theorem receive_cases (st : State) (now : Int) (msg : Option Msg) (st' : State) (es : List Eff) (b : Bool)
    (h : receive st now msg = .ok (st', es, b)) :
    (msg = none ∧ st' = (afterCleanup st now).1 ∧ es = (afterCleanup st now).2 ∧ b = false) ∨
    (∃ m s es', msg = some m ∧
      receiveLoop now m ((afterCleanup st now).1.requests.length + (afterCleanup st now).1.deps.length)
        (afterCleanup st now).1 0 = .ok (s, es', b) ∧
      st' = cleanupRequests s ∧ es = (afterCleanup st now).2 ++ es') := by
  unfold receive at h
  cases msg with
  | none =>
    simp only [Except.ok.injEq, Prod.mk.injEq] at h
    exact .inl ⟨rfl, h.1.symm, h.2.1.symm, h.2.2.symm⟩
  | some m =>
    simp only at h
    change (match receiveLoop now m ((afterCleanup st now).1.requests.length + (afterCleanup st now).1.deps.length)
        (afterCleanup st now).1 0 with
      | .error e => Except.error e
      | .ok (st', es, b) => .ok (cleanupRequests st', (afterCleanup st now).2 ++ es, b)) = _ at h
    cases hl : receiveLoop now m ((afterCleanup st now).1.requests.length + (afterCleanup st now).1.deps.length)
        (afterCleanup st now).1 0 with
    | error e => rw [hl] at h; simp at h
    | ok p =>
      rw [hl] at h
      simp only [Except.ok.injEq, Prod.mk.injEq] at h
      exact .inr ⟨m, p.1, p.2.1, rfl, by rw [← h.2.2, hl], h.1.symm, h.2.1.symm⟩

/-- All requests are open. -/
def AllOpen (rs : List Req) : Prop := ∀ r ∈ rs, r.listeners.isSome

/-- Well-formedness between calls. -/
structure WF (st : State) : Prop where
  nodup : (st.requests.map Req.mapping).Nodup
  lnodup : ListenersNodup st.requests
  isOpen : AllOpen st.requests

theorem afterCleanup_spec (st : State) (now : Int) (ho : AllOpen st.requests) :
    (afterCleanup st now).1.requests =
      (if (st.cleanup.exceeded now).1 then st.requests.filter (fun r => !expired now r) else st.requests) ∧
    (afterCleanup st now).1.cleanup = (st.cleanup.exceeded now).2 ∧
    (afterCleanup st now).1.maxLifetime = st.maxLifetime ∧
    (afterCleanup st now).1.deps = st.deps ∧
    (afterCleanup st now).1.isCallback = st.isCallback ∧
    (afterCleanup st now).2 = (if (st.cleanup.exceeded now).1 then (st.requests.filter (expired now)).flatMap
      (fun r => (extOf (r.listeners.getD [])).map (fun n => .terminated n r.mapping)) else []) ∧
    (∀ mid, (afterCleanup st now).1.mappings mid =
      if ((st.cleanup.exceeded now).1 && st.requests.any (fun r => expired now r && (r.mapping == mid) &&
            (extOf (r.listeners.getD [])).any st.isCallback)) = true
      then { st.mappings mid with value := none } else st.mappings mid) := by
  unfold afterCleanup
  by_cases he : (st.cleanup.exceeded now).1 = true
  · simp only [he, if_true, Bool.true_and, cleanupHanging, cleanupRequests]
    obtain ⟨h1, h2, h3, h4⟩ := terminateLoop_spec now st.requests { st with cleanup := (st.cleanup.exceeded now).2 }
    refine ⟨?_, ?_, ?_, ?_, ?_, h2, h4⟩
    · rw [h1]
      generalize st.requests = rs at ho
      induction rs with
      | nil => rfl
      | cons r rs ih =>
        have hr := ho r (by simp)
        simp only [List.map_cons, List.filter_cons]
        rw [ih (fun x hx => ho x (by simp [hx]))]
        by_cases hx : expired now r = true
        · simp [hx]
        · simp [hx, hr]
    · rw [h3]
    · rw [h3]
    · rw [h3]
    · rw [h3]
  · simp [he]

theorem wf_sub {st st' : State} (h : WF st) (hs : st'.requests.Sublist st.requests) : WF st' :=
  ⟨(hs.map Req.mapping).nodup h.nodup, fun r hr => h.lnodup r (hs.subset hr), fun r hr => h.isOpen r (hs.subset hr)⟩

theorem wf_afterCleanup (st : State) (now : Int) (h : WF st) : WF (afterCleanup st now).1 := by
  apply wf_sub h
  rw [(afterCleanup_spec st now h.isOpen).1]
  split
  · exact List.filter_sublist
  · exact List.Sublist.refl _

theorem wf_cleanupRequests {now : Int} {st s : State} (h : WF st) (he : Evolves now st s) : WF (cleanupRequests s) := by
  refine ⟨?_, ?_, ?_⟩
  · exact (List.filter_sublist.map Req.mapping).nodup (he.nodup h.nodup)
  · intro r hr
    exact he.lnodup h.lnodup r (List.mem_filter.1 hr).1
  · intro r hr
    simp only [cleanupRequests, List.mem_filter] at hr
    exact hr.2

/-- Nothing is closed without life time or by adding listeners: an `Evolves` step whose requests stay open. -/
theorem wf_registerMapping (st : State) (now : Int) (mid : Nat) (l : Option Lst) (send : Bool)
    (st' : State) (es : List Eff) (h : registerMapping st now mid l send = .ok (st', es)) (hw : WF st) : WF st' := by
  have he := (registerMapping_evolves st now mid l send st' es h).1
  refine ⟨he.nodup hw.nodup, he.lnodup hw.lnodup, ?_⟩
  rcases registerMapping_cases st now mid l send st' es h with ⟨h1, rfl, rfl⟩ | ⟨h1, rfl, rfl | ⟨i, r, x, ls, hr, hm, hl, hls, hx, rfl⟩⟩
  · intro r hr
    simp only [List.mem_append, List.mem_singleton] at hr
    rcases hr with hr | rfl
    · exact hw.isOpen r hr
    · rfl
  · exact hw.isOpen
  · intro y hy
    simp only at hy
    rcases List.mem_or_eq_of_mem_set hy with h1 | h1
    · exact hw.isOpen y h1
    · subst h1; rfl

theorem wf_depChanged (st : State) (now : Int) (orig src : Nat) (st' : State) (es : List Eff)
    (h : depChanged st now orig src = .ok (st', es)) (hw : WF st) : WF st' := by
  unfold depChanged at h
  split at h
  · simp only [Except.ok.injEq, Prod.mk.injEq] at h
    rw [← h.1]; exact hw
  · split at h
    · exact wf_registerMapping _ _ _ _ _ _ _ h ⟨hw.nodup, hw.lnodup, hw.isOpen⟩
    · simp only [Except.ok.injEq, Prod.mk.injEq] at h
      rw [← h.1]; exact hw

theorem wf_notify (now : Int) (src : Nat) (ls : List Lst) (st st' : State) (es : List Eff)
    (h : notify st now src ls = .ok (st', es)) (hw : WF st) : WF st' := by
  induction ls generalizing st st' es with
  | nil =>
    simp only [notify, Except.ok.injEq, Prod.mk.injEq] at h
    rw [← h.1]; exact hw
  | cons l ls ih =>
    cases l with
    | ext n =>
      simp only [notify] at h
      cases hn : notify st now src ls with
      | error e => rw [hn] at h; simp at h
      | ok p =>
        rw [hn] at h
        simp only [Except.ok.injEq, Prod.mk.injEq] at h
        obtain ⟨rfl, rfl⟩ := h
        exact ih st p.1 p.2 hn hw
    | dep o =>
      simp only [notify] at h
      cases hd : depChanged st now o src with
      | error e => rw [hd] at h; simp at h
      | ok p =>
        rw [hd] at h
        simp only at h
        cases hn : notify p.1 now src ls with
        | error e => rw [hn] at h; simp at h
        | ok q =>
          rw [hn] at h
          simp only [Except.ok.injEq, Prod.mk.injEq] at h
          obtain ⟨rfl, rfl⟩ := h
          exact ih p.1 q.1 q.2 hn (wf_depChanged st now o src p.1 p.2 hd hw)

theorem wf_mappings {st : State} (h : WF st) (f : Nat → Mapping) : WF { st with mappings := f } :=
  ⟨h.nodup, h.lnodup, h.isOpen⟩

/-- The parts of `set`. -/
theorem set_cases (st : State) (mid : Nat) (v : SetVal) (st' : State) (es : List Eff)
    (h : set st mid v = .ok (st', es)) :
    st' = { st with mappings := st'.mappings } ∧ (∀ e ∈ es, ∃ m, e = .send m) ∧
    ∃ f, ∀ i, st'.mappings i = if i = mid then { st.mappings i with set := f } else st.mappings i := by
  unfold set at h
  simp only at h
  split at h
  · simp only [Except.ok.injEq, Prod.mk.injEq] at h
    obtain ⟨rfl, rfl⟩ := h
    exact ⟨rfl, by simp, (st.mappings mid).set, by intro i; split <;> simp_all⟩
  · split at h
    · simp at h
    · rename_i field hf
      simp only [Except.ok.injEq, Prod.mk.injEq] at h
      obtain ⟨rfl, rfl⟩ := h
      refine ⟨rfl, ?_, field, ?_⟩
      · intro e he
        cases field with
        | none => simp [sendField] at he
        | one m => simp [sendField] at he; exact ⟨m, he⟩
        | many ms =>
          simp only [sendField, List.mem_filterMap] at he
          obtain ⟨a, -, ha⟩ := he
          cases a with
          | none => simp at ha
          | some m => simp at ha; exact ⟨m, ha.symm⟩
      · intro i
        simp only [State.setMapping]
        split
        · rename_i hi; subst hi; rfl
        · rfl

theorem connectionLost_state (P : Protocol) (st : State) :
    (connectionLost P st).1 = { st with mappings := (connectionLost P st).1.mappings } ∧
    (∀ mid, ∃ v, (connectionLost P st).1.mappings mid = { st.mappings mid with value := v }) := by
  have nt : ∀ (s : State) (r : Req), (notifyTerminated s r).1 = { s with mappings := (notifyTerminated s r).1.mappings } ∧
      ∀ mid, ∃ v, (notifyTerminated s r).1.mappings mid = { s.mappings mid with value := v } := by
    intro s r
    simp only [notifyTerminated]
    cases r.listeners with
    | none => exact ⟨rfl, fun mid => ⟨(s.mappings mid).value, rfl⟩⟩
    | some ls =>
      simp only
      split
      · refine ⟨rfl, fun mid => ?_⟩
        simp only [State.setMapping]
        split
        · rename_i hm; subst hm; exact ⟨none, rfl⟩
        · exact ⟨(s.mappings mid).value, rfl⟩
      · exact ⟨rfl, fun mid => ⟨(s.mappings mid).value, rfl⟩⟩
  have key : ∀ (rs : List Req) (acc : State × List Eff),
      let res := rs.foldl (fun acc r =>
        if P.isBidirectional r.mapping then
          ((notifyTerminated acc.1 r).1, acc.2 ++ (notifyTerminated acc.1 r).2)
        else acc) acc
      res.1 = { acc.1 with mappings := res.1.mappings } ∧
      ∀ mid, ∃ v, res.1.mappings mid = { acc.1.mappings mid with value := v } := by
    intro rs
    induction rs with
    | nil => intro acc; exact ⟨rfl, fun mid => ⟨(acc.1.mappings mid).value, rfl⟩⟩
    | cons r rs ih =>
      intro acc
      simp only [List.foldl_cons]
      by_cases hb : P.isBidirectional r.mapping = true
      · simp only [hb, if_true]
        obtain ⟨i1, i2⟩ := ih ((notifyTerminated acc.1 r).1, acc.2 ++ (notifyTerminated acc.1 r).2)
        obtain ⟨n1, n2⟩ := nt acc.1 r
        refine ⟨?_, ?_⟩
        · rw [i1, n1]
        · intro mid
          obtain ⟨v, hv⟩ := i2 mid
          obtain ⟨w, hw⟩ := n2 mid
          exact ⟨v, by rw [hv]; simp only; rw [hw]⟩
      · simp only [hb]
        exact ih acc
  exact key st.requests (st, [])

theorem wf_eq {st st' : State} (h : WF st) (he : st'.requests = st.requests) : WF st' :=
  ⟨by rw [he]; exact h.nodup, by rw [he]; exact h.lnodup, by rw [he]; exact h.isOpen⟩

/-- Well-formedness is preserved by every call. -/
theorem wf_step (P : Protocol) (st : State) (now : Int) (op : Op) (st' : State) (es : List Eff)
    (h : step P st now op = .ok (st', es)) (hw : WF st) : WF st' := by
  cases op with
  | register mid l =>
    simp only [step, registerBi] at h
    have key : ∀ s : State, WF s → register s now mid l = .ok (st', es) → WF st' := by
      intro s hws hs
      simp only [register] at hs
      split at hs
      · exact wf_registerMapping _ _ _ _ _ _ _ hs hws
      · simp only [Except.ok.injEq, Prod.mk.injEq] at hs
        rw [← hs.1]; exact hws
    split at h
    · exact key (st.setMapping mid _) (wf_eq hw rfl) h
    · exact key _ hw h
  | request mid l =>
    simp only [step, request] at h
    split at h
    · simp only [Except.ok.injEq, Prod.mk.injEq] at h
      rw [← h.1]; exact hw
    · split at h
      · refine wf_registerMapping _ _ _ _ _ _ _ h (wf_eq hw ?_)
        split <;> rfl
      · exact wf_registerMapping _ _ _ _ _ _ _ h hw
  | set mid v =>
    simp only [step, setBi] at h
    cases hs : set st mid v with
    | error e => rw [hs] at h; simp at h
    | ok p =>
      rw [hs] at h
      have hreq : p.1.requests = st.requests := by rw [(set_cases st mid v p.1 p.2 hs).1]
      have hwp : WF p.1 := wf_eq hw hreq
      simp only at h
      split at h
      · split at h
        · simp only [Except.ok.injEq, Prod.mk.injEq] at h
          rw [← h.1]; exact hwp
        · split at h
          · simp at h
          · rename_i i hi st2 es2 hn
            simp only [Except.ok.injEq, Prod.mk.injEq] at h
            rw [← h.1]
            unfold notifyListeners at hn
            split at hn
            · simp only [Except.ok.injEq, Prod.mk.injEq] at hn
              rw [← hn.1]; exact wf_eq hwp rfl
            · split at hn
              · simp at hn
              · exact wf_notify _ _ _ _ _ _ hn (wf_eq hwp rfl)
      · simp only [Except.ok.injEq, Prod.mk.injEq] at h
        rw [← h.1]; exact hwp
  | receive msg =>
    simp only [step] at h
    cases hr : receive st now msg with
    | error e => rw [hr] at h; simp at h
    | ok p =>
      rw [hr] at h
      simp only [Except.ok.injEq, Prod.mk.injEq] at h
      obtain ⟨rfl, rfl⟩ := h
      have hwc := wf_afterCleanup st now hw
      rcases receive_cases st now msg p.1 p.2.1 p.2.2 hr with ⟨-, h1, -⟩ | ⟨m, s, es', -, h1, h2, -⟩
      · rw [h1]; exact hwc
      · rw [h2]
        exact wf_cleanupRequests hwc (receiveLoop_evolves _ _ _ _ _ _ _ _ h1).1
  | connectionLost =>
    simp only [step, Except.ok.injEq] at h
    apply wf_eq hw
    have := (connectionLost_state P st).1
    rw [h] at this
    simp only at this
    rw [this]

theorem wf_run (P : Protocol) (ops : List (Int × Op)) (st st' : State) (ess : List (List Eff))
    (h : run P st ops = .ok (st', ess)) (hw : WF st) : WF st' := by
  induction ops generalizing st ess with
  | nil =>
    simp only [run, Except.ok.injEq, Prod.mk.injEq] at h
    rw [← h.1]; exact hw
  | cons o ops ih =>
    obtain ⟨now, op⟩ := o
    simp only [run] at h
    cases hs : step P st now op with
    | error e => rw [hs] at h; simp at h
    | ok p =>
      rw [hs] at h
      simp only at h
      cases hr : run P p.1 ops with
      | error e => rw [hr] at h; simp at h
      | ok q =>
        rw [hr] at h
        simp only [Except.ok.injEq, Prod.mk.injEq] at h
        obtain ⟨rfl, rfl⟩ := h
        exact ih p.1 q.2 hr (wf_step P st now op p.1 p.2 hs hw)

theorem wf_initial (f : Nat → Mapping) (L : Nat) (cb : Nat → Bool) : WF (initial f L cb) :=
  ⟨by simp [initial], by simp [initial, ListenersNodup], by simp [initial, AllOpen]⟩

end PySwitch.Client
