import Verif.Spec.KemperProtocol
namespace PySwitch.Kemper.Protocol
open PySwitch.Wire PySwitch.Kemper.Protocol.Spec

theorem getFlags_eq (init tuner : Bool) :
    getFlags init true false false false tuner = (if init then 1 else 0) + 2 + (if tuner then 32 else 0) := by
  cases init <;> cases tuner <;> decide

theorem beacon_eq (st : State) (init : Bool) : beacon st init = beaconMsg init st.tunerMode st.lease := by
  simp only [beacon, extendedMessage, beaconMsg, getFlags_eq, encodeTimeLease]
  rfl

theorem beaconMsg_ne (t t' : Bool) (l l' : Nat) : beaconMsg true t l ≠ beaconMsg false t' l' := by
  simp only [beaconMsg, ne_eq, Msg.sysex.injEq, List.cons.injEq]
  cases t <;> cases t' <;> simp

theorem run_snoc (st : State) (h : List (Int × Event)) (now : Int) (e : Event) :
    run st (h ++ [(now, e)]) =
      let s := (run st h).2
      ((run st h).1 ++ [⟨now, e, s.running, (step s now e).2, (step s now e).1.running⟩], (step s now e).1) := by
  induction h generalizing st with
  | nil => rfl
  | cons x h ih =>
    obtain ⟨t, ev⟩ := x
    simp only [List.cons_append, run, ih]

theorem sensing_iff (man data : List Nat) :
    (man = senseManufacturer ∧ slice data 2 5 = slice senseData 2 5) ↔ IsSensing (.sysex man data) := by
  have e : slice senseData 2 5 = [0x7e, 0x00, 0x7f] := rfl
  rw [e]
  simp only [IsSensing, slice]
  match data with
  | [] => simp
  | [_] => simp
  | [_, _] => simp
  | [_, _, c] => simp
  | [_, _, c, d] => simp
  | a :: b :: c :: d :: f :: rest =>
    simp only [List.take_succ_cons, List.take_zero, List.drop_succ_cons, List.drop_zero, senseManufacturer]
    constructor
    · rintro ⟨h, h2⟩
      simp only [List.cons.injEq] at h2
      obtain ⟨rfl, rfl, rfl, -⟩ := h2
      exact h
    · intro h
      split at h
      · rename_i heq
        simp only [Msg.sysex.injEq, List.cons.injEq] at heq
        obtain ⟨rfl, -, -, rfl, rfl, rfl, -⟩ := heq
        exact ⟨h, rfl⟩
      · exact h.elim

theorem receive_spec (st : State) (now : Int) (m : Msg) :
    (st.initSent = true ∧ IsSensing m ∧ receive st now m =
      ({ st with
          resend := if st.running then st.resend else st.resend.reset now
          hasBeenRunning := st.hasBeenRunning || !st.running
          running := true
          sensing := st.sensing.reset now }, true)) ∨
    (¬ (st.initSent = true ∧ IsSensing m) ∧ receive st now m = (st, false)) := by
  unfold receive
  cases hi : st.initSent with
  | false => right; simp
  | true =>
    simp only [Bool.not_true, Bool.false_eq_true, if_false]
    cases m with
    | sysex man data =>
      have hs := sensing_iff man data
      by_cases h1 : man = senseManufacturer
      · by_cases h2 : slice data 2 5 = slice senseData 2 5
        · left
          refine ⟨trivial, hs.1 ⟨h1, h2⟩, ?_⟩
          rcases st with ⟨_, _, r, _, _, _, hb, _⟩
          cases r <;> cases hb <;> simp_all
        · right
          refine ⟨fun h => h2 (hs.2 h.2).2, ?_⟩
          simp [h1, h2]
      · right
        refine ⟨fun h => h1 (hs.2 h.2).1, ?_⟩
        simp [h1]
    | _ => right; simp [IsSensing]

theorem last_snoc (l : List Int) (t : Int) : last (l ++ [t]) = t := by simp [last]

theorem mem_le_last (l : List Int) (h : ((0 : Int) :: l).Pairwise (fun a b => 5000 < b - a)) :
    ∀ x ∈ (0 : Int) :: l, x ≤ last l := by
  intro x hx
  rcases List.eq_nil_or_concat l with rfl | ⟨l', y, rfl⟩
  · simp at hx; simp [last, hx]
  · rw [List.concat_eq_append] at *
    rw [last_snoc]
    rw [← List.cons_append, List.pairwise_append] at h
    rw [← List.cons_append, List.mem_append] at hx
    rcases hx with hx | hx
    · have := h.2.2 x hx y (by simp); omega
    · simp at hx; omega

/-- Two consecutive elements, counted from the start of the clock, are more than `d` apart. -/
def Spaced (d : Int) : Int → List Int → Prop
  | _, [] => True
  | a, b :: l => d < b - a ∧ Spaced d b l

theorem spaced_snoc (d a : Int) (l : List Int) (t : Int) :
    Spaced d a (l ++ [t]) ↔ Spaced d a l ∧ d < t - (l.getLast?.getD a) := by
  induction l generalizing a with
  | nil => simp [Spaced]
  | cons b l ih =>
    simp only [List.cons_append, Spaced, ih]
    cases l with
    | nil => simp [Spaced]
    | cons c l => simp [and_assoc, List.getLast?_cons]

theorem spaced_pairwise (d a : Int) (hd : 0 ≤ d) (l : List Int) (h : Spaced d a l) :
    (a :: l).Pairwise (fun a b => d < b - a) := by
  induction l generalizing a with
  | nil => simp
  | cons b l ih =>
    obtain ⟨h1, h2⟩ := h
    have := ih b h2
    rw [List.pairwise_cons]
    refine ⟨?_, this⟩
    intro x hx
    rw [List.pairwise_cons] at this
    simp only [List.mem_cons] at hx
    rcases hx with rfl | hx
    · exact h1
    · have := this.1 x hx; omega

/-- The relation between the trace and the state. -/
structure Inv (lease : Nat) (tuner : Bool) (tr : List Entry) (st : State) : Prop where
  leaseEq : st.lease = lease
  tunerEq : st.tunerMode = tuner
  init : st.init = ⟨5000, last (sentTimes (beaconMsg true tuner lease) tr)⟩
  spaced : Spaced 5000 0 (sentTimes (beaconMsg true tuner lease) tr)
  initSent : st.initSent = true ↔ sentTimes (beaconMsg true tuner lease) tr ≠ []
  resend : st.resend = ⟨500 * lease, last (aliveTimes (beaconMsg false tuner lease) tr)⟩
  interval : st.sensing.interval = 1500
  sensing : st.running = true → st.initSent = true ∧ sensingTimes tr ≠ [] ∧ st.sensing.lastReset = last (sensingTimes tr)
  been : st.hasBeenRunning = true ↔ ∃ e ∈ tr, e.after = true
  running : st.running = (tr.getLast?.map (·.after)).getD false

theorem sentTimes_snoc (m : Msg) (tr : List Entry) (e : Entry) :
    sentTimes m (tr ++ [e]) = sentTimes m tr ++ (if .send m ∈ e.outs then [e.now] else []) := by
  simp only [sentTimes, List.filter_append, List.map_append, List.filter_cons, List.filter_nil]
  split <;> simp_all

theorem aliveTimes_snoc (m : Msg) (tr : List Entry) (e : Entry) :
    aliveTimes m (tr ++ [e]) = aliveTimes m tr ++
      (if .send m ∈ e.outs ∨ (e.before = false ∧ e.after = true) then [e.now] else []) := by
  simp only [aliveTimes, List.filter_append, List.map_append, List.filter_cons, List.filter_nil]
  by_cases h : .send m ∈ e.outs ∨ (e.before = false ∧ e.after = true)
  · simp [h]
  · simp [h]

open Classical in
theorem sensingTimes_snoc (tr : List Entry) (e : Entry) :
    sensingTimes (tr ++ [e]) = sensingTimes tr ++
      (if ∃ m, e.event = .receive m ∧ IsSensing m then [e.now] else []) := by
  simp only [sensingTimes, List.filter_append, List.map_append, List.filter_cons, List.filter_nil]
  by_cases h : ∃ m, e.event = .receive m ∧ IsSensing m
  · rw [if_pos (by simpa using h), if_pos h]; rfl
  · rw [if_neg (by simpa using h), if_neg h]; rfl

theorem sentTimes_pos (m : Msg) (tr : List Entry) (e : Entry) (h : .send m ∈ e.outs) :
    sentTimes m (tr ++ [e]) = sentTimes m tr ++ [e.now] := by
  rw [sentTimes_snoc, if_pos h]

theorem sentTimes_neg (m : Msg) (tr : List Entry) (e : Entry) (h : ¬ (.send m ∈ e.outs)) :
    sentTimes m (tr ++ [e]) = sentTimes m tr := by
  rw [sentTimes_snoc, if_neg h, List.append_nil]

theorem aliveTimes_pos (m : Msg) (tr : List Entry) (e : Entry) (h : .send m ∈ e.outs ∨ (e.before = false ∧ e.after = true)) :
    aliveTimes m (tr ++ [e]) = aliveTimes m tr ++ [e.now] := by
  rw [aliveTimes_snoc, if_pos h]

theorem aliveTimes_neg (m : Msg) (tr : List Entry) (e : Entry) (h : ¬ (.send m ∈ e.outs ∨ (e.before = false ∧ e.after = true))) :
    aliveTimes m (tr ++ [e]) = aliveTimes m tr := by
  rw [aliveTimes_snoc, if_neg h, List.append_nil]

theorem sensingTimes_pos (tr : List Entry) (e : Entry) (h : ∃ m, e.event = .receive m ∧ IsSensing m) :
    sensingTimes (tr ++ [e]) = sensingTimes tr ++ [e.now] := by
  rw [sensingTimes_snoc, if_pos h]

theorem sensingTimes_neg (tr : List Entry) (e : Entry) (h : ¬ (∃ m, e.event = .receive m ∧ IsSensing m)) :
    sensingTimes (tr ++ [e]) = sensingTimes tr := by
  rw [sensingTimes_snoc, if_neg h, List.append_nil]

/-- All that `update` does. -/
theorem update_spec (st : State) (now : Int) :
    (st.running = false ∧ st.init.lastReset + st.init.interval < now ∧ update st now =
      ({ st with init := { st.init with lastReset := now }, initSent := true },
       (if st.hasBeenRunning then [.connectionLost] else []) ++ [.send (beaconMsg true st.tunerMode st.lease)])) ∨
    (st.running = false ∧ ¬ st.init.lastReset + st.init.interval < now ∧ update st now = (st, [])) ∨
    (st.running = true ∧ st.sensing.lastReset + st.sensing.interval < now ∧ update st now =
      ({ st with sensing := { st.sensing with lastReset := now }, running := false }, [])) ∨
    (st.running = true ∧ ¬ st.sensing.lastReset + st.sensing.interval < now ∧
      st.resend.lastReset + st.resend.interval < now ∧ update st now =
      ({ st with resend := { st.resend with lastReset := now } }, [.send (beaconMsg false st.tunerMode st.lease)])) ∨
    (st.running = true ∧ ¬ st.sensing.lastReset + st.sensing.interval < now ∧
      ¬ st.resend.lastReset + st.resend.interval < now ∧ update st now = (st, [])) := by
  unfold update
  cases hr : st.running with
  | false =>
    simp only [PeriodCounter.exceeded, beacon_eq]
    by_cases h : st.init.lastReset + st.init.interval < now
    · left; simp [h]
    · right; left
      rcases st with ⟨⟩
      simp only at h hr ⊢
      subst hr
      simp [h]
  | true =>
    simp only [PeriodCounter.exceeded, beacon_eq]
    by_cases h : st.sensing.lastReset + st.sensing.interval < now
    · right; right; left; simp [h]
    · by_cases h2 : st.resend.lastReset + st.resend.interval < now
      · right; right; right; left; simp [h, h2]
      · right; right; right; right
        rcases st with ⟨⟩
        simp only at h h2 hr ⊢
        subst hr
        simp [h, h2]

theorem inv_step (lease : Nat) (tuner : Bool) (tr : List Entry) (st : State) (hi : Inv lease tuner tr st)
    (now : Int) (e : Event) :
    Inv lease tuner (tr ++ [⟨now, e, st.running, (step st now e).2, (step st now e).1.running⟩]) (step st now e).1 := by
  obtain ⟨hl, ht, hin, hsp, his, hre, hiv, hse, hbe, hru⟩ := hi
  have hne := beaconMsg_ne tuner tuner lease lease
  cases e with
  | update =>
    simp only [step]
    have e1 : ¬ ∃ m, Event.update = .receive m ∧ IsSensing m := by simp
    rcases update_spec st now with ⟨h1, h2, h3⟩ | ⟨h1, h2, h3⟩ | ⟨h1, h2, h3⟩ | ⟨h1, h2, h4, h3⟩ | ⟨h1, h2, h4, h3⟩
    · rw [h3, hl, ht]
      have e2 : Out.send (beaconMsg true tuner lease) ∈
          (if st.hasBeenRunning then [Out.connectionLost] else []) ++ [.send (beaconMsg true tuner lease)] := by simp
      have e3 : Out.send (beaconMsg false tuner lease) ∉
          (if st.hasBeenRunning then [Out.connectionLost] else []) ++ [.send (beaconMsg true tuner lease)] := by
        cases st.hasBeenRunning <;> simp [Ne.symm hne]
      refine ⟨by simp, by simp, ?_, ?_, ?_, ?_, hiv, ?_, ?_, ?_⟩
      · rw [sentTimes_pos _ _ _ e2, last_snoc, hin]
      · rw [sentTimes_pos _ _ _ e2, spaced_snoc]
        refine ⟨hsp, ?_⟩
        rw [hin] at h2
        simp only [last] at h2 ⊢
        omega
      · rw [sentTimes_pos _ _ _ e2]; simp
      · rw [aliveTimes_neg _ _ _ (fun h => h.elim e3 (fun h => by simp [h1] at h))]; exact hre
      · simp [h1]
      · simp [h1, hbe]
      · simp [h1]
    · rw [h3]
      refine ⟨hl, ht, ?_, ?_, ?_, ?_, hiv, ?_, ?_, ?_⟩
      · rw [sentTimes_neg _ _ _ (by simp)]; exact hin
      · rw [sentTimes_neg _ _ _ (by simp)]; exact hsp
      · rw [sentTimes_neg _ _ _ (by simp)]; exact his
      · rw [aliveTimes_neg _ _ _ (by simp [h1])]; exact hre
      · simp [h1]
      · simp [h1, hbe]
      · simp
    · rw [h3]
      refine ⟨hl, ht, ?_, ?_, ?_, ?_, hiv, ?_, ?_, ?_⟩
      · rw [sentTimes_neg _ _ _ (by simp)]; exact hin
      · rw [sentTimes_neg _ _ _ (by simp)]; exact hsp
      · rw [sentTimes_neg _ _ _ (by simp)]; exact his
      · rw [aliveTimes_neg _ _ _ (by simp [h1])]; exact hre
      · simp
      · simp [hbe]
      · simp
    · rw [h3, hl, ht]
      refine ⟨by simp, by simp, ?_, ?_, ?_, ?_, hiv, ?_, ?_, ?_⟩
      · rw [sentTimes_neg _ _ _ (by simp [hne])]; exact hin
      · rw [sentTimes_neg _ _ _ (by simp [hne])]; exact hsp
      · rw [sentTimes_neg _ _ _ (by simp [hne])]; exact his
      · rw [aliveTimes_pos _ _ _ (by simp), last_snoc, hre]
      · rw [sensingTimes_neg _ _ e1]; exact hse
      · have : ∃ e ∈ tr, e.after = true := by
          rw [h1] at hru
          cases hg : tr.getLast? with
          | none => simp [hg] at hru
          | some x =>
            simp only [hg, Option.map_some, Option.getD_some] at hru
            exact ⟨x, List.mem_of_getLast? hg, hru.symm⟩
        have h5 := hbe.2 this
        simp [h5, h1]
      · simp
    · rw [h3]
      refine ⟨hl, ht, ?_, ?_, ?_, ?_, hiv, ?_, ?_, ?_⟩
      · rw [sentTimes_neg _ _ _ (by simp)]; exact hin
      · rw [sentTimes_neg _ _ _ (by simp)]; exact hsp
      · rw [sentTimes_neg _ _ _ (by simp)]; exact his
      · rw [aliveTimes_neg _ _ _ (by simp [h1])]; exact hre
      · rw [sensingTimes_neg _ _ e1]; exact hse
      · have : ∃ e ∈ tr, e.after = true := by
          rw [h1] at hru
          cases hg : tr.getLast? with
          | none => simp [hg] at hru
          | some x =>
            simp only [hg, Option.map_some, Option.getD_some] at hru
            exact ⟨x, List.mem_of_getLast? hg, hru.symm⟩
        have h5 := hbe.2 this
        simp [h5, h1]
      · simp
  | receive m =>
    simp only [step]
    rcases receive_spec st now m with ⟨h1, h2, h3⟩ | ⟨h1, h3⟩
    · rw [h3]
      refine ⟨hl, ht, ?_, ?_, ?_, ?_, hiv, ?_, ?_, ?_⟩
      · rw [sentTimes_neg _ _ _ (by simp)]; exact hin
      · rw [sentTimes_neg _ _ _ (by simp)]; exact hsp
      · rw [sentTimes_neg _ _ _ (by simp)]; exact his
      · cases hr : st.running with
        | true => rw [aliveTimes_neg _ _ _ (by simp)]; simpa [hr] using hre
        | false =>
          rw [aliveTimes_pos _ _ _ (by simp), last_snoc]
          simp [PeriodCounter.reset, hre]
      · intro _
        rw [sensingTimes_pos _ _ ⟨m, rfl, h2⟩, last_snoc]
        simp [h1, PeriodCounter.reset]
      · constructor
        · intro _; exact ⟨_, List.mem_append_right _ (List.mem_singleton_self _), rfl⟩
        · intro _
          cases hr : st.running with
          | false => simp
          | true =>
            have : ∃ e ∈ tr, e.after = true := by
              rw [hr] at hru
              cases hg : tr.getLast? with
              | none => simp [hg] at hru
              | some x =>
                simp only [hg, Option.map_some, Option.getD_some] at hru
                exact ⟨x, List.mem_of_getLast? hg, hru.symm⟩
            simp [hbe.2 this]
      · simp
    · rw [h3]
      refine ⟨hl, ht, ?_, ?_, ?_, ?_, hiv, ?_, ?_, ?_⟩
      · rw [sentTimes_neg _ _ _ (by simp)]; exact hin
      · rw [sentTimes_neg _ _ _ (by simp)]; exact hsp
      · rw [sentTimes_neg _ _ _ (by simp)]; exact his
      · rw [aliveTimes_neg _ _ _ (by rintro (h | ⟨h, h'⟩) <;> simp_all)]; exact hre
      · intro hr
        have hx := hse hr
        rw [sensingTimes_neg _ _ ?_]
        · exact hx
        · rintro ⟨m', he, hs⟩
          simp only [Event.receive.injEq] at he
          subst he
          exact h1 ⟨hx.1, hs⟩
      · constructor
        · intro h
          obtain ⟨e, he, ha⟩ := hbe.1 h
          exact ⟨e, List.mem_append_left _ he, ha⟩
        · rintro ⟨e, he, ha⟩
          rw [List.mem_append, List.mem_singleton] at he
          rcases he with he | rfl
          · exact hbe.2 ⟨e, he, ha⟩
          · simp only at ha
            apply hbe.2
            rw [ha] at hru
            cases hg : tr.getLast? with
            | none => simp [hg] at hru
            | some x =>
              simp only [hg, Option.map_some, Option.getD_some] at hru
              exact ⟨x, List.mem_of_getLast? hg, hru.symm⟩
      · simp

theorem inv_run (lease : Nat) (tuner : Bool) (t₀ : Int) (h : List (Int × Event)) :
    Inv lease tuner (run (initial lease tuner t₀) h).1 (run (initial lease tuner t₀) h).2 := by
  rcases hr : h.reverse with _ | ⟨x, r⟩
  · have : h = [] := by simpa using hr
    subst this
    refine ⟨rfl, rfl, rfl, trivial, by simp [run, initial, sentTimes], rfl, rfl, by simp [run, initial],
      by simp [run, initial], rfl⟩
  · have he : h = r.reverse ++ [x] := by
      have := congrArg List.reverse hr
      simpa using this
    have hlen : r.reverse.length < h.length := by rw [he]; simp
    have ih := inv_run lease tuner t₀ r.reverse
    rw [he]
    obtain ⟨now, e⟩ := x
    rw [run_snoc]
    exact inv_step lease tuner _ _ ih now e
termination_by h.length

end PySwitch.Kemper.Protocol
