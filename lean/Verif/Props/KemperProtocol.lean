import Verif.Lemmas.KemperProtocol
import Verif.Props.Wire
/-
Properties C28 to C30: the Kemper bidirectional protocol. `run (initial lease tuner t₀) h` is the trace and the
final state after any history `h` of updates and received messages with clock readings.
-/
namespace PySwitch.Props
open PySwitch.Wire PySwitch.Kemper.Protocol PySwitch.Kemper.Protocol.Spec

/-- C28: any two init beacons are more than 5 seconds apart, and the first one is sent more than 5 seconds after
the start of the clock. -/
theorem C28_spacing (lease : Nat) (tuner : Bool) (t₀ : Int) (h : List (Int × Event)) :
    ((0 : Int) :: sentTimes (beaconMsg true tuner lease) (run (initial lease tuner t₀) h).1).Pairwise
      (fun a b => 5000 < b - a) :=
  spaced_pairwise 5000 0 (by decide) _ (inv_run lease tuner t₀ h).spaced

/-- C28: while offline, an update sends an init beacon exactly if more than 5 seconds have passed since the last
one (or the start of the clock), and it never sends another message. Only updates send. -/
theorem C28_beacon (lease : Nat) (tuner : Bool) (t₀ : Int) (h : List (Int × Event)) (now : Int) :
    let s := (run (initial lease tuner t₀) h).2
    let tr := (run (initial lease tuner t₀) h).1
    s.running = false →
      (.send (beaconMsg true tuner lease) ∈ (step s now .update).2 ↔
        last (sentTimes (beaconMsg true tuner lease) tr) + 5000 < now) ∧
      (∀ m, .send m ∈ (step s now .update).2 → m = beaconMsg true tuner lease) ∧
      (∀ m, (step s now (.receive m)).2 = []) := by
  intro s tr hr
  have hi := inv_run lease tuner t₀ h
  refine ⟨?_, ?_, fun m => rfl⟩
  · simp only [step]
    rcases update_spec s now with ⟨h1, h2, h3⟩ | ⟨h1, h2, h3⟩ | ⟨h1, -⟩ | ⟨h1, -⟩ | ⟨h1, -⟩
    · rw [h3, hi.leaseEq, hi.tunerEq]
      rw [hi.init] at h2
      simp only [List.mem_append, List.mem_singleton, or_true, true_iff]
      exact h2
    · rw [h3]
      rw [hi.init] at h2
      simp only [List.not_mem_nil, false_iff]
      exact h2
    all_goals rw [hr] at h1; simp at h1
  · intro m hm
    simp only [step] at hm
    rcases update_spec s now with ⟨h1, h2, h3⟩ | ⟨h1, h2, h3⟩ | ⟨h1, -⟩ | ⟨h1, -⟩ | ⟨h1, -⟩
    · rw [h3, hi.leaseEq, hi.tunerEq] at hm
      cases hb : s.hasBeenRunning <;> simp_all
    · rw [h3] at hm; simp at hm
    all_goals rw [hr] at h1; simp at h1

/-- C28: an offline protocol gets connected exactly by receiving a sensing message after an init beacon has been
sent. -/
theorem C28_connect (lease : Nat) (tuner : Bool) (t₀ : Int) (h : List (Int × Event)) (now : Int) (e : Event) :
    let s := (run (initial lease tuner t₀) h).2
    let tr := (run (initial lease tuner t₀) h).1
    s.running = false →
      ((step s now e).1.running = true ↔
        (∃ m, e = .receive m ∧ IsSensing m) ∧ ∃ x ∈ tr, .send (beaconMsg true tuner lease) ∈ x.outs) := by
  intro s tr hr
  have hi := inv_run lease tuner t₀ h
  have hsent : s.initSent = true ↔ ∃ x ∈ tr, .send (beaconMsg true tuner lease) ∈ x.outs := by
    rw [hi.initSent]
    simp only [sentTimes, ne_eq, List.map_eq_nil_iff, List.filter_eq_nil_iff, decide_eq_true_eq]
    constructor
    · intro hx
      apply Classical.byContradiction
      intro hy
      exact hx (fun x hx hs => hy ⟨x, hx, hs⟩)
    · rintro ⟨x, a, b⟩ hx
      exact hx x a b
  rw [← hsent]
  cases e with
  | update =>
    simp only [step]
    rcases update_spec s now with ⟨h1, h2, h3⟩ | ⟨h1, h2, h3⟩ | ⟨h1, -⟩ | ⟨h1, -⟩ | ⟨h1, -⟩
    · rw [h3]; simp [hr]
    · rw [h3]; simp [hr]
    all_goals rw [hr] at h1; simp at h1
  | receive m =>
    simp only [step]
    rcases receive_spec s now m with ⟨h1, h2, h3⟩ | ⟨h1, h3⟩
    · rw [h3]; simp [h1, h2]
    · rw [h3]
      simp only [hr, Event.receive.injEq, Bool.false_eq_true, false_iff]
      rintro ⟨⟨m', rfl, h4⟩, h5⟩
      exact h1 ⟨h5, h4⟩

/-- The sensing message of the Kemper. -/
def sensing : Msg := .sysex [0x00, 0x20, 0x33] [0, 0, 0x7e, 0x00, 0x7f, 5]

example : IsSensing sensing := rfl

/-- A history with handshake, keep-alive messages, loss of the connection and new init beacon. -/
def exampleHist : List (Int × Event) :=
  [(100, .update), (200, .receive sensing), (5001, .update), (5002, .update), (5100, .receive sensing),
   (6500, .receive sensing), (7000, .receive sensing), (7200, .update), (8000, .update), (8501, .update),
   (10002, .update), (10003, .update)]

example : ((run (initial 4 true 3) exampleHist).1.map (fun e => (e.now, e.outs, e.after))) =
    [(100, [], false), (200, [], false), (5001, [.send (beaconMsg true true 4)], false), (5002, [], false),
     (5100, [], true), (6500, [], true), (7000, [], true), (7200, [.send (beaconMsg false true 4)], true),
     (8000, [], true), (8501, [], false),
     (10002, [.connectionLost, .send (beaconMsg true true 4)], false), (10003, [], false)] := by decide

/-- C29: while connected, an update sends a keep-alive beacon exactly if the connection is not just lost and more
than half of the time lease has passed since the last one or since the connection was established. It sends
nothing else. -/
theorem C29_keep_alive (lease : Nat) (tuner : Bool) (t₀ : Int) (h : List (Int × Event)) (now : Int) :
    let s := (run (initial lease tuner t₀) h).2
    let tr := (run (initial lease tuner t₀) h).1
    s.running = true →
      (step s now .update).2 =
        if last (sensingTimes tr) + 1500 < now then []
        else if last (aliveTimes (beaconMsg false tuner lease) tr) + 500 * lease < now
          then [.send (beaconMsg false tuner lease)] else [] := by
  intro s tr hr
  have hi := inv_run lease tuner t₀ h
  have hs := (hi.sensing hr).2.2
  have hv := hi.interval
  simp only [step]
  rcases update_spec s now with ⟨h1, -⟩ | ⟨h1, -⟩ | ⟨h1, h2, h3⟩ | ⟨h1, h2, h4, h3⟩ | ⟨h1, h2, h4, h3⟩
  · rw [hr] at h1; simp at h1
  · rw [hr] at h1; simp at h1
  · rw [hs, hv] at h2
    rw [h3, if_pos h2]
  · rw [hs, hv] at h2
    rw [hi.resend] at h4
    rw [h3, if_neg h2, hi.leaseEq, hi.tunerEq, if_pos h4]
  · rw [hs, hv] at h2
    rw [hi.resend] at h4
    rw [h3, if_neg h2, if_neg h4]

theorem alive_mono (lease : Nat) (tuner : Bool) (t₀ : Int) (h : List (Int × Event))
    (hm : (h.map Prod.fst).Pairwise (· ≤ ·)) :
    let tr := (run (initial lease tuner t₀) h).1
    tr.map (·.now) = h.map Prod.fst ∧
      (sentTimes (beaconMsg false tuner lease) tr).Pairwise (fun a b => 500 * (lease : Int) < b - a) ∧
      ∀ x ∈ sentTimes (beaconMsg false tuner lease) tr, x ≤ last (aliveTimes (beaconMsg false tuner lease) tr) := by
  rcases hr : h.reverse with _ | ⟨x, r⟩
  · have : h = [] := by simpa using hr
    subst this
    simp [run, sentTimes]
  · have he : h = r.reverse ++ [x] := by
      have := congrArg List.reverse hr
      simpa using this
    have hlen : r.reverse.length < h.length := by rw [he]; simp
    rw [he, List.map_append, List.pairwise_append] at hm
    obtain ⟨i1, i2, i3⟩ := alive_mono lease tuner t₀ r.reverse hm.1
    have hi := inv_run lease tuner t₀ r.reverse
    rw [he]
    obtain ⟨now, e⟩ := x
    simp only [run_snoc]
    generalize hs : (run (initial lease tuner t₀) r.reverse).2 = s at *
    generalize ht : (run (initial lease tuner t₀) r.reverse).1 = tr at *
    have hle : ∀ y ∈ sentTimes (beaconMsg false tuner lease) tr, y ≤ now := by
      intro y hy
      apply hm.2.2 y _ now (by simp)
      rw [← i1]
      simp only [sentTimes, List.mem_map, List.mem_filter] at hy ⊢
      obtain ⟨a, ⟨h1, -⟩, h2⟩ := hy
      exact ⟨a, h1, h2⟩
    refine ⟨by rw [List.map_append, List.map_append, i1]; rfl, ?_⟩
    by_cases hsend : .send (beaconMsg false tuner lease) ∈ (step s now e).2
    · rw [sentTimes_pos _ _ _ hsend, aliveTimes_pos _ _ _ (.inl hsend), last_snoc]
      refine ⟨?_, ?_⟩
      · rw [List.pairwise_append]
        refine ⟨i2, by simp, ?_⟩
        intro a ha b hb
        have hb : b = now := by simpa using hb
        rw [hb]
        have ha2 := i3 a ha
        cases e with
        | receive m => simp [step] at hsend
        | update =>
          simp only [step] at hsend
          rcases update_spec s now with ⟨h1, h2, h3⟩ | ⟨h1, h2, h3⟩ | ⟨h1, h2, h3⟩ | ⟨h1, h2, h4, h3⟩ | ⟨h1, h2, h4, h3⟩
          · rw [h3, hi.leaseEq, hi.tunerEq] at hsend
            have := beaconMsg_ne tuner tuner lease lease
            cases hb : s.hasBeenRunning <;> simp_all
          · rw [h3] at hsend; simp at hsend
          · rw [h3] at hsend; simp at hsend
          · rw [hi.resend] at h4
            simp only at h4
            omega
          · rw [h3] at hsend; simp at hsend
      · intro x hx
        simp only [List.mem_append, List.mem_singleton] at hx
        rcases hx with hx | rfl
        · exact hle x hx
        · exact Int.le_refl _
    · rw [sentTimes_neg _ _ _ hsend]
      refine ⟨i2, ?_⟩
      intro x hx
      by_cases hal : s.running = false ∧ (step s now e).1.running = true
      · rw [aliveTimes_pos _ _ _ (.inr hal), last_snoc]
        exact hle x hx
      · rw [aliveTimes_neg _ _ _ (by rintro (h | h); exact hsend h; exact hal h)]
        exact i3 x hx
termination_by h.length

/-- C29: any two keep-alive beacons are more than half of the time lease apart. -/
theorem C29_spacing (lease : Nat) (tuner : Bool) (t₀ : Int) (h : List (Int × Event))
    (hm : (h.map Prod.fst).Pairwise (· ≤ ·)) :
    (sentTimes (beaconMsg false tuner lease) (run (initial lease tuner t₀) h).1).Pairwise
      (fun a b => 500 * (lease : Int) < b - a) := (alive_mono lease tuner t₀ h hm).2.1

example : (exampleHist.map Prod.fst).Pairwise (· ≤ ·) := by decide

/-- C29: a connected protocol goes offline exactly by an update more than 1.5 seconds after the last sensing
message. -/
theorem C29_lost (lease : Nat) (tuner : Bool) (t₀ : Int) (h : List (Int × Event)) (now : Int) (e : Event) :
    let s := (run (initial lease tuner t₀) h).2
    let tr := (run (initial lease tuner t₀) h).1
    s.running = true →
      (((step s now e).1.running = false) ↔ e = .update ∧ last (sensingTimes tr) + 1500 < now) ∧
      sensingTimes tr ≠ [] := by
  intro s tr hr
  have hi := inv_run lease tuner t₀ h
  have hs := (hi.sensing hr).2.2
  have hv := hi.interval
  refine ⟨?_, (hi.sensing hr).2.1⟩
  cases e with
  | update =>
    simp only [step, true_and]
    rcases update_spec s now with ⟨h1, -⟩ | ⟨h1, -⟩ | ⟨h1, h2, h3⟩ | ⟨h1, h2, h4, h3⟩ | ⟨h1, h2, h4, h3⟩
    · rw [hr] at h1; simp at h1
    · rw [hr] at h1; simp at h1
    · rw [hs, hv] at h2
      rw [h3]
      simpa using h2
    · rw [hs, hv] at h2
      rw [h3]
      simp only [hr, Bool.true_eq_false, false_iff]
      exact h2
    · rw [hs, hv] at h2
      rw [h3]
      simp only [hr, Bool.true_eq_false, false_iff]
      exact h2
  | receive m =>
    simp only [step]
    rcases receive_spec s now m with ⟨h1, h2, h3⟩ | ⟨h1, h3⟩
    · rw [h3]; simp
    · rw [h3]; simp [hr]

/-- The termination reports to all listeners of bidirectional parameters, in order of registration. -/
def reports (P : Client.Protocol) (rs : List Client.Req) : List Client.Eff :=
  (rs.filter (fun r => P.isBidirectional r.mapping)).flatMap (fun r =>
    (Client.extOf (r.listeners.getD [])).map (fun n => .terminated n r.mapping))

theorem connectionLost_effects (P : Client.Protocol) (st : Client.State) :
    (Client.connectionLost P st).2 = reports P st.requests := by
  have key : ∀ (rs : List Client.Req) (acc : Client.State × List Client.Eff),
      (rs.foldl (fun acc r =>
        if P.isBidirectional r.mapping then
          let t := Client.notifyTerminated acc.1 r
          (t.1, acc.2 ++ t.2)
        else acc) acc).2 = acc.2 ++ reports P rs := by
    intro rs
    induction rs with
    | nil => intro acc; simp [reports]
    | cons r rs ih =>
      intro acc
      simp only [List.foldl_cons, ih]
      have hr : (Client.notifyTerminated acc.1 r).2 =
          (Client.extOf (r.listeners.getD [])).map (fun n => .terminated n r.mapping) := by
        simp only [Client.notifyTerminated]
        cases r.listeners <;> rfl
      by_cases hb : P.isBidirectional r.mapping
      · simp [hb, reports, hr]
      · simp [hb, reports]
  have := key st.requests (st, [])
  rw [List.nil_append] at this
  exact this

/-- C28. The handshake works in the client, too: for every history of calls of the client, its protocol is in the state given
by the updates and by messages received (those not used by the client), in order. So everything said about histories of the
protocol holds for the client. -/
theorem C28_client (P : Client.Protocol) (ops : List (Int × BiOp)) (st st' : BiState) (ess : List (List Client.Eff))
    (h : biRun P st ops = .ok (st', ess)) :
    ∃ es : List (Int × Event), st'.protocol = (run st.protocol es).2 ∧ es.Sublist (ops.filterMap eventOf) ∧
      updates es = updates (ops.filterMap eventOf) := by
  induction ops generalizing st ess with
  | nil =>
    simp only [biRun, Except.ok.injEq, Prod.mk.injEq] at h
    exact ⟨[], by rw [← h.1]; rfl, by simp, rfl⟩
  | cons o ops ih =>
    obtain ⟨now, op⟩ := o
    simp only [biRun] at h
    cases hs : biStep P st now op with
    | error e => rw [hs] at h; simp at h
    | ok r =>
      obtain ⟨st1, es1⟩ := r
      rw [hs] at h
      simp only at h
      cases hr : biRun P st1 ops with
      | error e => rw [hr] at h; simp at h
      | ok r2 =>
        obtain ⟨st2, ess2⟩ := r2
        rw [hr] at h
        simp only [Except.ok.injEq, Prod.mk.injEq] at h
        obtain ⟨rfl, -⟩ := h
        obtain ⟨es, h1, h2, h3⟩ := ih st1 ess2 hr
        have same : st1.protocol = st.protocol → eventOf (now, op) = none ∨ (∃ m, op = .receive (some m)) →
            ∃ es : List (Int × Event), st2.protocol = (run st.protocol es).2 ∧ es.Sublist (((now, op) :: ops).filterMap eventOf) ∧
              updates es = updates (((now, op) :: ops).filterMap eventOf) := by
          intro he hn
          refine ⟨es, by rw [h1, he], ?_, ?_⟩
          · simp only [List.filterMap_cons]
            split
            · exact h2
            · exact h2.cons _
          · simp only [List.filterMap_cons]
            rcases hn with hn | ⟨m, rfl⟩
            · rw [hn]; exact h3
            · simp only [eventOf, updates, List.filter_cons]
              exact h3
        have next : ∀ e, eventOf (now, op) = some (now, e) → st1.protocol = (step st.protocol now e).1 →
            ∃ es : List (Int × Event), st2.protocol = (run st.protocol es).2 ∧ es.Sublist (((now, op) :: ops).filterMap eventOf) ∧
              updates es = updates (((now, op) :: ops).filterMap eventOf) := by
          intro e hev he
          refine ⟨(now, e) :: es, by rw [h1, he]; rfl, ?_, ?_⟩
          · simp only [List.filterMap_cons, hev]; exact h2.cons_cons _
          · simp only [List.filterMap_cons, hev, updates, List.filter_cons]
            unfold updates at h3
            rw [h3]
        cases op with
        | register mid l =>
          simp only [biStep] at hs
          cases hx : Client.registerBi P st.client now mid l with
          | error e => rw [hx] at hs; simp [Except.map] at hs
          | ok x => rw [hx] at hs; simp only [Except.map, Except.ok.injEq, Prod.mk.injEq] at hs; exact same (by rw [← hs.1]) (.inl rfl)
        | request mid l =>
          simp only [biStep] at hs
          cases hx : Client.request st.client now mid l with
          | error e => rw [hx] at hs; simp [Except.map] at hs
          | ok x => rw [hx] at hs; simp only [Except.map, Except.ok.injEq, Prod.mk.injEq] at hs; exact same (by rw [← hs.1]) (.inl rfl)
        | set mid v =>
          simp only [biStep] at hs
          cases hx : Client.setBi P st.client now mid v with
          | error e => rw [hx] at hs; simp [Except.map] at hs
          | ok x => rw [hx] at hs; simp only [Except.map, Except.ok.injEq, Prod.mk.injEq] at hs; exact same (by rw [← hs.1]) (.inl rfl)
        | update =>
          simp only [biStep, Except.ok.injEq] at hs
          exact next .update rfl (by rw [show st1 = (biUpdate P st now).1 by rw [hs]]; rfl)
        | receive msg =>
          simp only [biStep, biReceive] at hs
          cases hx : Client.receive st.client now msg with
          | error e => rw [hx] at hs; simp [Except.map] at hs
          | ok x =>
            obtain ⟨c, e, b⟩ := x
            rw [hx] at hs
            cases b with
            | true =>
              simp only [Except.map, Except.ok.injEq, Prod.mk.injEq] at hs
              refine same (by rw [← hs.1]) ?_
              cases msg with
              | none => exact .inl rfl
              | some m => exact .inr ⟨m, rfl⟩
            | false =>
              cases msg with
              | none =>
                simp only [Except.map, Except.ok.injEq, Prod.mk.injEq] at hs
                exact same (by rw [← hs.1]) (.inl rfl)
              | some m =>
                simp only [Except.map, Except.ok.injEq, Prod.mk.injEq] at hs
                exact next (.receive m) rfl (by rw [← hs.1]; rfl)

/-- C28. A sensing message which is not the answer to one of the client's requests connects the client as soon as a beacon has
been sent, and every beacon due is sent by the client. -/
theorem C28_forwarded (P : Client.Protocol) (st : BiState) (now : Int) :
    (∀ m c es, IsSensing m → st.protocol.initSent = true → Client.receive st.client now (some m) = .ok (c, es, false) →
      ∃ st', biStep P st now (.receive (some m)) = .ok (st', es) ∧ st'.client = c ∧ st'.protocol.running = true) ∧
    (∃ st' es, biStep P st now .update = .ok (st', es) ∧ sent es = sends (step st.protocol now .update).2) := by
  refine ⟨?_, ?_⟩
  · intro m c es hm hi hc
    refine ⟨⟨c, (receive st.protocol now m).1⟩, ?_, rfl, ?_⟩
    · simp only [biStep, biReceive, hc]
      rfl
    · have := receive_spec st.protocol now m
      grind
  · refine ⟨_, _, rfl, ?_⟩
    have hcl : ∀ c : Client.State, sent (Client.connectionLost P c).2 = [] := by
      intro c
      rw [(connectionLost_effects P c)]
      simp only [sent, reports, List.filterMap_eq_nil_iff, List.mem_flatMap, List.mem_map]
      rintro a ⟨r, _, n, _, rfl⟩
      rfl
    have key : ∀ (outs : List Out) (c : Client.State) (acc : List Client.Eff),
        sent (outs.foldl (fun (acc : Client.State × List Client.Eff) o =>
          match o with
          | .connectionLost => let t := Client.connectionLost P acc.1; (t.1, acc.2 ++ t.2)
          | .send m => (acc.1, acc.2 ++ [.send m])) (c, acc)).2 = sent acc ++ sends outs := by
      intro outs
      induction outs with
      | nil => intro c acc; simp [sends]
      | cons o outs ih =>
        intro c acc
        rw [List.foldl_cons]
        cases o with
        | connectionLost =>
          simp only
          rw [ih]
          have := hcl c
          simp only [sent, List.filterMap_append] at this ⊢
          rw [this]
          simp [sends]
        | send m =>
          simp only
          rw [ih]
          simp [sent, sends]
    exact (key _ st.client []).trans (by simp [sent, step])

/-- C29: after a lost connection, the first update which is later than 5 seconds after the last init beacon
informs every listener of every bidirectional parameter once, and then sends the new init beacon; until the
connection is established again, this repeats with every init beacon.
Missing for the full property: the report comes only with the init beacon, and not at all if the connection
is established again before, see `C29_quick_reconnect`. -/
theorem C29_reported_partial (P : Client.Protocol) (client : Client.State) (lease : Nat) (tuner : Bool) (t₀ : Int)
    (h : List (Int × Event)) (now : Int) :
    let s := (run (initial lease tuner t₀) h).2
    let tr := (run (initial lease tuner t₀) h).1
    s.running = false → (∃ e ∈ tr, e.after = true) →
    last (sentTimes (beaconMsg true tuner lease) tr) + 5000 < now →
      (biUpdate P ⟨client, s⟩ now).2 = reports P client.requests ++ [.send (beaconMsg true tuner lease)] := by
  intro s tr hr hb hn
  have hi := inv_run lease tuner t₀ h
  have hb' := hi.been.2 hb
  simp only [biUpdate]
  rcases update_spec s now with ⟨h1, h2, h3⟩ | ⟨h1, h2, h3⟩ | ⟨h1, -⟩ | ⟨h1, -⟩ | ⟨h1, -⟩
  · rw [h3, hi.leaseEq, hi.tunerEq, hb']
    simp only [if_true, List.cons_append, List.nil_append, List.foldl_cons, List.foldl_nil,
      connectionLost_effects]
  · rw [hi.init] at h2
    exact absurd hn h2
  all_goals rw [hr] at h1; simp at h1

/-- The history of the example meets the hypotheses: after the loss at 8501, the listeners 7 and 8 are informed. -/
example : (run (initial 4 true 3) (exampleHist.take 10)).2.running = false ∧
    (∃ e ∈ (run (initial 4 true 3) (exampleHist.take 10)).1, e.after = true) ∧
    last (sentTimes (beaconMsg true true 4) (run (initial 4 true 3) (exampleHist.take 10)).1) = 5001 ∧
    reports ⟨fun i => i == 1, fun _ => false⟩
      [⟨0, some [.ext 5], none⟩, ⟨1, some [.ext 7, .ext 8], none⟩] = [.terminated 7 1, .terminated 8 1] := by decide

/-- The rest of C29 is not met: the connection is lost at 7000 and established again at 7100; the listeners are
never told about it. -/
theorem C29_quick_reconnect :
    (run (initial 4 true 3) [(5001, .update), (5100, .receive sensing), (7000, .update),
      (7100, .receive sensing), (7200, .update)]).1.map (fun e => (e.now, e.outs, e.after)) =
    [(5001, [.send (beaconMsg true true 4)], false), (5100, [], true), (7000, [], false), (7100, [], true),
     (7200, [], true)] := by decide

/-- C30: the flags byte consists of the six flags, in bits 0 to 5, and nothing else. -/
theorem C30_flags (init sysex echo nofe noctr tunemode : Bool) :
    getFlags init sysex echo nofe noctr tunemode =
      init.toNat + 2 * sysex.toNat + 4 * echo.toNat + 8 * nofe.toNat + 16 * noctr.toNat + 32 * tunemode.toNat := by
  cases init <;> cases sysex <;> cases echo <;> cases nofe <;> cases noctr <;> cases tunemode <;> rfl

/-- C30: each flag can be read from its bit, hence different flags give different bytes; the byte is below 64. -/
theorem C30_bits (init sysex echo nofe noctr tunemode : Bool) :
    let f := getFlags init sysex echo nofe noctr tunemode
    f < 64 ∧ f.testBit 0 = init ∧ f.testBit 1 = sysex ∧ f.testBit 2 = echo ∧ f.testBit 3 = nofe ∧
      f.testBit 4 = noctr ∧ f.testBit 5 = tunemode := by
  cases init <;> cases sysex <;> cases echo <;> cases nofe <;> cases noctr <;> cases tunemode <;> decide

/-- C30: every message the protocol ever sends is one of the two beacons with the configured tuner mode and time
lease. For leases up to 255 seconds it passes the wire unchanged. -/
theorem C30_beacon (lease : Nat) (tuner : Bool) (t₀ : Int) (h : List (Int × Event)) (e : Entry) (m : Msg)
    (he : e ∈ (run (initial lease tuner t₀) h).1) (hm : .send m ∈ e.outs) :
    (∃ init, m = beaconMsg init tuner lease ∧ init = !e.before) ∧
    (lease < 256 → Wire.Spec.Valid m ∧ ∀ channels ch rest, ch ∈ channels →
      fromMessageBytes channels (toBytes ch m ++ rest) = (some m, (toBytes ch m).length)) := by
  have key : ∃ init, m = beaconMsg init tuner lease ∧ init = !e.before := by
    rcases hr : h.reverse with _ | ⟨x, r⟩
    · have : h = [] := by simpa using hr
      subst this
      simp [run] at he
    · have heq : h = r.reverse ++ [x] := by
        have := congrArg List.reverse hr
        simpa using this
      obtain ⟨now, ev⟩ := x
      rw [heq, run_snoc] at he
      simp only [List.mem_append, List.mem_singleton] at he
      rcases he with he | rfl
      · have hlen : r.reverse.length < h.length := by rw [heq]; simp
        exact (C30_beacon lease tuner t₀ r.reverse e m he hm).1
      · have hi := inv_run lease tuner t₀ r.reverse
        generalize (run (initial lease tuner t₀) r.reverse).2 = s at *
        cases ev with
        | receive m => simp [step] at hm
        | update =>
          simp only [step] at hm
          rcases update_spec s now with ⟨h1, h2, h3⟩ | ⟨h1, h2, h3⟩ | ⟨h1, h2, h3⟩ | ⟨h1, h2, h4, h3⟩ | ⟨h1, h2, h4, h3⟩
          · rw [h3, hi.leaseEq, hi.tunerEq] at hm
            refine ⟨true, ?_, by simp [h1]⟩
            cases hb : s.hasBeenRunning <;> simp_all
          · rw [h3] at hm; simp at hm
          · rw [h3] at hm; simp at hm
          · rw [h3, hi.leaseEq, hi.tunerEq] at hm
            exact ⟨false, by simpa using hm, by simp [h1]⟩
          · rw [h3] at hm; simp at hm
  refine ⟨key, ?_⟩
  intro hl
  obtain ⟨init, rfl, -⟩ := key
  have hv : Wire.Spec.Valid (beaconMsg init tuner lease) := by
    refine ⟨by decide, by decide, ?_⟩
    intro b hb
    simp only [List.mem_cons, List.not_mem_nil, or_false] at hb
    rcases hb with rfl | rfl | rfl | rfl | rfl | rfl | rfl | rfl <;> first | decide | skip
    · cases init <;> cases tuner <;> decide
    · omega
  exact ⟨hv, fun channels ch rest hc => C04_round_trip channels ch _ rest hv (.inl rfl) hc⟩
termination_by h.length

/-- C30: beacons of different configurations differ. -/
theorem C30_injective (init tuner init' tuner' : Bool) (lease lease' : Nat)
    (h : beaconMsg init tuner lease = beaconMsg init' tuner' lease') :
    init = init' ∧ tuner = tuner' ∧ lease / 2 = lease' / 2 := by
  simp only [beaconMsg, Msg.sysex.injEq, List.cons.injEq, true_and, and_true] at h
  refine ⟨?_, ?_, h.2⟩ <;> (cases init <;> cases tuner <;> cases init' <;> cases tuner' <;> simp at h ⊢)

end PySwitch.Props
