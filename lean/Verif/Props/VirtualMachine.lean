import Verif.Lemmas.VirtualMorph
/-
C134 and C135: tempo, tuner and morphing of the virtual Kemper.
-/
namespace PySwitch.Props
open PySwitch PySwitch.Wire PySwitch.Kemper PySwitch.Kemper.Virtual
open PySwitch.Kemper.Setup hiding Ev initial
open PySwitch.Kemper.Machine
open PySwitch.Kemper.Machine.Spec

/-- What the device answers to the question for a numeric parameter. -/
def C134.answer (m : Machine) (page number : Nat) : List (List Nat) := (m.step (.receive 0 [] (ask page number))).2

open C134

/-- C134. After every history of complete messages, updates and uses of the user interface, the virtual Kemper reports the tempo which has been tapped or set
last. -/
theorem C134_tempo (bug : Bool) (now : Int) (date : List Nat) (es : List Ev) (he : ∀ e ∈ es, Proper e) :
    answer ((initial bug now date).run es).1 4 0 = [report 4 0 (shown (es.foldl Metronome.step {}).bpm)] := by
  have h := run_inv (initial_inv bug now date) es he
  exact ask_machine h.view 0 [] (i := 30) (by decide) at30 rfl rfl h.bpm

/-- A tempo of 100 BPM is tapped; the other way round after a pause of more than 3 s. -/
example : answer ((initial true 0 []).run [.receive 10 [] [176, 30, 1], .receive 20 [] [176, 30, 0], .receive 610 [] [176, 30, 1]]).1 4 0 =
    [report 4 0 6400] ∧
    answer ((initial true 0 []).run [.receive 10 [] [176, 30, 1], .receive 20 [] [176, 30, 0], .receive 3011 [] [176, 30, 1]]).1 4 0 = [report 4 0 7680] := by
  decide +kernel

example : shown ([.receive 10 [] [176, 30, 1], .receive 20 [] [176, 30, 0], .receive 610 [] [176, 30, 1]].foldl Metronome.step {}).bpm = 6400 := by
  decide +kernel

/-- C134. After the tempo has been set (1 to 256 BPM), the tempo light changes with every half beat: each time an update finds that more than
half a beat has passed since the last change. -/
theorem C134_light (bug : Bool) (now : Int) (date : List Nat) (before after : List Ev) (hb : ∀ e ∈ before, Proper e) (ha : ∀ e ∈ after, Proper e)
    (hn : ∀ e ∈ after, NoTempo e) (t : Int) (d : List Nat) (bpm : Nat) (h1 : 1 ≤ bpm) (h2 : bpm ≤ 256) :
    ∃ v, answer ((initial bug now date).run before).1 124 0 = [report 124 0 v] ∧
      answer ((initial bug now date).run (before ++ .use t d (.tempo bpm) :: after)).1 124 0 =
        [report 124 0 (light v (flips bpm t (updates after)))] := by
  have h := run_inv (initial_inv bug now date) before hb
  obtain ⟨v, hv, hl⟩ := tempo_lit h.view t h1 h2
  obtain ⟨r1, r2⟩ := run_lit hl after ha hn
  have run_append : ∀ (m : Machine) (a b : List Ev), (m.run (a ++ b)).1 = ((m.run a).1.run b).1 := by
    intro m a b
    induction a generalizing m with
    | nil => rfl
    | cons e a ih => exact ih _
  refine ⟨v, ask_machine h.view 0 [] (i := 28) (by decide) at28 rfl rfl hv, ?_⟩
  rw [run_append]
  exact ask_machine r1 0 [] (i := 28) (by decide) at28 rfl rfl r2

/-- 60 BPM, and an update every 100 ms: the light changes after 600, 1200 and 1800 ms. -/
example : flips 60 0 (updates ((List.range 20).map fun (i : Nat) => .update (100 * (i : Int)))) = 3 := by decide +kernel

example : answer ((initial true 0 []).run (.use 0 [] (.tempo 60) :: (List.range 20).map fun (i : Nat) => .update (100 * (i : Int)))).1 124 0 = [report 124 0 1] := by
  decide +kernel

namespace C134

theorem run_append (m : Machine) (a b : List Ev) : (m.run (a ++ b)).1 = ((m.run a).1.run b).1 := by
  induction a generalizing m with
  | nil => rfl
  | cons e a ih => exact ih _

theorem reports_append (a b : List (List Nat)) : tunerReports (a ++ b) = tunerReports a ++ tunerReports b := List.filter_append ..

theorem reports_mute {out : List (List Nat)} (h1 : Mute [125, 84] out) (h2 : Mute [124, 15] out) : tunerReports out = [] := by
  simp only [tunerReports, List.filter_eq_nil_iff, decide_eq_true_eq]
  intro b hb
  rintro (hx | hx)
  · exact h1 b hb hx
  · exact h2 b hb hx

theorem send_eq {d : Device} (h : Shape d.params) {page number i n : Nat}
    (hi : T.findIdx? (fun p => p.send == some (.nrpn [page, number])) = some i) (hv : val d.params i = some (.num n)) :
    sendOf d.params (.nrpn [page, number]) = [report page number n] := by
  obtain ⟨-, -, q, hq, hs, -, hf⟩ := h.sent hi
  have hqv : q.value = .num n := by simpa [val, hq] using hv
  simp [sendOf, hf, Param.bytes, hs, hqv, setCode, encode, report]

theorem beat_frame {m : Machine} {p : Setup.Spec.Player} (h : View m.dev p) (now : Int) : View (m.beat now).1.dev p ∧
    (∀ i t, Own i → T[i]? = some t → i ≠ 28 → val (m.beat now).1.dev.params i = val m.dev.params i) ∧
    Mute [125, 84] (m.beat now).2 ∧ Mute [124, 15] (m.beat now).2 := by
  unfold Machine.beat
  split
  · exact ⟨h, fun _ _ _ _ _ => rfl, Mute.nil, Mute.nil⟩
  · split
    · obtain ⟨ps, hps⟩ := ui_rest h.shape [] (page := 124) (number := 0) (.num (if m.dev.num (.nrpn [124, 0]) = 0 then 1 else 0)) (by decide) at28
        (.inl ⟨[124, 0], rfl, by decide⟩)
      refine ⟨ui_view h _ _ _ _, ?_, ?_, ?_⟩
      · intro i t hi ht h28
        refine ui_other h.shape _ _ _ _ hi ht ?_
        intro hsend
        have := sends_apart ⟨i, hi.1⟩ ⟨28, by decide⟩ (fun hx => h28 (congrArg Fin.val hx)) t ht t28 at28 hsend
        rw [hsend] at this
        simp at this
      · simp only [hps]
        exact setKey_mute rfl (by intro e he; simp only [Key.nrpn.injEq] at he; subst he; exact ⟨rfl, by decide⟩)
      · simp only [hps]
        exact setKey_mute rfl (by intro e he; simp only [Key.nrpn.injEq] at he; subst he; exact ⟨rfl, by decide⟩)
    · exact ⟨h, fun _ _ _ _ _ => rfl, Mute.nil, Mute.nil⟩

theorem morph_mute {m : Machine} (h : Shape m.dev.params) : Mute [125, 84] m.morph.2 ∧ Mute [124, 15] m.morph.2 := by
  unfold Machine.morph
  split
  · exact ⟨Mute.nil, Mute.nil⟩
  · dsimp only
    split
    · exact ⟨Mute.nil, Mute.nil⟩
    · rename_i target _ _
      obtain ⟨ps, hps⟩ := ui_rest h [] (page := 0) (number := 11) (.num (fade (m.dev.num (.nrpn [0, 11])) target)) (i := 34) (by decide) at34 (.inr ⟨some 128, rfl⟩)
      simp only [hps]
      exact ⟨setKey_mute rfl (by intro e he; simp only [Key.nrpn.injEq] at he; subst he; exact ⟨rfl, by decide⟩),
        setKey_mute rfl (by intro e he; simp only [Key.nrpn.injEq] at he; subst he; exact ⟨rfl, by decide⟩)⟩

end C134

/-- C134. In an update, the virtual Kemper sends the note and the deviation of the tuner exactly when the tuner is on and more than 20 ms have passed
since it has sent them last. -/
theorem C134_tuner (bug : Bool) (now : Int) (date : List Nat) (es : List Ev) (he : ∀ e ∈ es, Complete e) (t : Int) :
    let m := ((initial bug now date).run es).1
    ∃ note deviation, answer m 125 84 = [report 125 84 note] ∧ answer m 124 15 = [report 124 15 deviation] ∧
      tunerReports (m.step (.update t)).2 =
        if (es.foldl Tuner.step { last := now }).sounds t then [report 125 84 note, report 124 15 deviation] else [] := by
  intro m
  have h : Tun m _ := run_tun (initial_tun bug now date) es he
  obtain ⟨p, hp⟩ := h.view
  obtain ⟨note, hnote⟩ := val_num (d := m.dev) hp.shape (i := 32) (by decide) at32 rfl
  obtain ⟨dv, hdv⟩ := val_num (d := m.dev) hp.shape (i := 33) (by decide) at33 rfl
  refine ⟨note, dv, ask_machine h.view 0 [] (i := 32) (by decide) at32 rfl rfl hnote, ask_machine h.view 0 [] (i := 33) (by decide) at33 rfl rfl hdv, ?_⟩
  have hv1 : View ({ m with dev := (m.dev.update t).1 } : Machine).dev p := (any_step (e := .update t) hp trivial).1
  obtain ⟨b1, b2, b3, b4⟩ := C134.beat_frame (m := { m with dev := (m.dev.update t).1 }) hv1 t
  have hr : (Machine.beat { m with dev := (m.dev.update t).1 } t).1.dev.tunerRunning = decide ((es.foldl Tuner.step { last := now }).mode = 1) := by
    rw [beat_running (m := { m with dev := (m.dev.update t).1 }) hp.shape t]
    exact h.running
  have hpd : (Machine.beat { m with dev := (m.dev.update t).1 } t).1.tunerPeriod = ⟨20, (es.foldl Tuner.step { last := now }).last⟩ := by
    rw [beat_period]; exact h.period
  obtain ⟨-, u2, u3⟩ := tune_eq hr hpd t
  have hsh : Shape ((Machine.beat { m with dev := (m.dev.update t).1 } t).1.tune t).1.dev.params := by rw [u2]; exact b1.shape
  obtain ⟨f1, f2⟩ := C134.morph_mute hsh
  have e32 := (b2 32 t32 (by decide) at32 (by decide)).trans hnote
  have e33 := (b2 33 t33 (by decide) at33 (by decide)).trans hdv
  rw [C134.send_eq b1.shape (i := 32) (by decide) e32, C134.send_eq b1.shape (i := 33) (by decide) e33] at u3
  have hup : ∀ data : List Nat, Mute data (m.dev.update t).2 := by
    intro data b hb hx
    simp only [Device.update, Virtual.update] at hb
    have hk : ∀ n k, ¬About data (keepAliveBytes n k) ∨ True := fun _ _ => .inr trivial
    have hbb : ∃ n k, b = keepAliveBytes n k := by
      repeat' (split at hb)
      all_goals simp at hb
      all_goals exact ⟨_, _, hb⟩
    obtain ⟨n, k, rfl⟩ := hbb
    simp [About, keepAliveBytes] at hx
  have e : (m.step (.update t)).2 = (m.dev.update t).2 ++ (Machine.beat { m with dev := (m.dev.update t).1 } t).2 ++
      ((Machine.beat { m with dev := (m.dev.update t).1 } t).1.tune t).2 ++ ((Machine.beat { m with dev := (m.dev.update t).1 } t).1.tune t).1.morph.2 := rfl
  rw [e]
  simp only [C134.reports_append]
  rw [C134.reports_mute (hup _) (hup _), C134.reports_mute b3 b4, C134.reports_mute f1 f2, u3]
  split
  · simp [tunerReports, report]
  · rfl

/-- The tuner is switched on by PySwitch (CC 31); 15 ms after the values have been sent they are not sent again. -/
example : tunerReports (((initial true 0 []).run [.receive 5 [] [176, 31, 1]]).1.step (.update 30)).2 = [report 125 84 0, report 124 15 8191] ∧
    tunerReports (((initial true 0 []).run [.receive 5 [] [176, 31, 1], .update 30]).1.step (.update 45)).2 = [] ∧
    tunerReports (((initial true 0 []).run [.receive 5 [] [176, 31, 1], .receive 6 [] [176, 31, 0]]).1.step (.update 30)).2 = [] := by
  decide +kernel

/-! ### C135 -/

/-- C135. After every history of complete messages, updates and uses of the user interface, the morph state which the virtual Kemper reports is that of
the specification: another rig, selected with its button, starts at 0; the morph button and the button of the same rig start morphing, in steps of 410 per
update, to the other end (unless the bug of the real device is simulated). -/
theorem C135_morph_partial (bug : Bool) (now : Int) (date : List Nat) (es : List Ev) (he : ∀ e ∈ es, Complete e) :
    answer ((initial bug now date).run es).1 0 11 = [report 0 11 (es.foldl Morph.step { bug }).state] := by
  have h := run_mor (initial_mor bug now date) es he
  exact ask_machine ⟨_, h.view⟩ 0 [] (i := 34) (by decide) at34 rfl rfl h.state

namespace C135

theorem quiet {s : Morph} {e : Ev} (h : NoMorph e) (hu : ∀ now, e ≠ .update now) :
    (s.step e).state = s.state ∧ (s.step e).target = s.target ∧ (s.step e).bug = s.bug := by
  cases e with
  | update now => exact absurd rfl (hu now)
  | receive now date m =>
    obtain ⟨h1, h2⟩ := h
    simp only [Morph.step, Morph.message]
    split
    · exact absurd rfl (h2 11 (.inl rfl))
    · exact absurd rfl (h2 80 (.inr (.inl rfl)))
    · rename_i c v _ _
      rw [if_neg (fun hx => h2 c (.inr (.inr hx)) rfl)]
      exact ⟨rfl, rfl, rfl⟩
    · rw [if_neg h1]
      exact ⟨rfl, rfl, rfl⟩
  | use now date u =>
    cases u with
    | tempo b => exact ⟨rfl, rfl, rfl⟩
    | rigButton on => exact ⟨rfl, rfl, rfl⟩
    | dev e =>
      cases e with
      | rig n => exact ⟨rfl, rfl, rfl⟩
      | value page number v =>
        simp only [Morph.step]
        split
        · rename_i heq; simp at heq
        · rename_i heq; simp at heq
        · rename_i heq; simp at heq
        · rename_i heq; simp at heq
        · rename_i heq; simp at heq; exact absurd (by simp [heq]) h
        · exact ⟨rfl, rfl, rfl⟩

theorem morphed_end (t n : Nat) : morphed t t n = t := by
  induction n with
  | zero => rfl
  | succ n ih =>
    have : towards t t = t := by simp only [towards]; rw [if_neg (by omega)]; omega
    simp only [morphed, this, ih]

/-- While the morphing goes on. -/
theorem fading (s : Morph) (v t : Nat) (es : List Ev) (hn : ∀ e ∈ es, NoMorph e) (hs : s.state = v)
    (ht : s.target = some t ∨ (s.target = none ∧ v = t)) : (es.foldl Morph.step s).state = morphed v t (updates es).length := by
  induction es generalizing s v with
  | nil => exact hs
  | cons e es ih =>
    have hn' := fun e' h' => hn e' (List.mem_cons_of_mem _ h')
    by_cases hu : ∃ now, e = .update now
    · obtain ⟨now, rfl⟩ := hu
      simp only [List.foldl_cons, updates, List.length_cons, morphed]
      by_cases hvt : v = t
      · subst hvt
        have htw : towards v v = v := by simp only [towards]; rw [if_neg (by omega)]; omega
        rw [htw]
        refine ih _ v hn' ?_ (.inr ⟨?_, rfl⟩)
        · simp only [Morph.step, Morph.update]
          split
          · exact hs
          · rename_i t' ht'
            rcases ht with ht | ht
            · rw [ht] at ht'
              simp only [Option.some.injEq] at ht'
              rw [if_pos (by rw [hs, ht'])]
              exact hs
            · rw [ht.1] at ht'; simp at ht'
        · simp only [Morph.step, Morph.update]
          split
          · assumption
          · rename_i t' ht'
            rcases ht with ht | ht
            · rw [ht] at ht'
              simp only [Option.some.injEq] at ht'
              rw [if_pos (by rw [hs, ht'])]
            · rw [ht.1] at ht'; simp at ht'
      · have ht : s.target = some t := by
          rcases ht with ht | ht
          · exact ht
          · exact absurd ht.2 hvt
        have hst : s.state ≠ t := by rw [hs]; exact hvt
        refine ih _ _ hn' ?_ (.inl ?_)
        · simp only [Morph.step, Morph.update, ht]
          rw [if_neg hst, hs]
        · simp only [Morph.step, Morph.update, ht]
          rw [if_neg hst]
    · obtain ⟨q1, q2, -⟩ := quiet (s := s) (hn e (by simp)) (fun now hx => hu ⟨now, hx⟩)
      have hup : updates (e :: es) = updates es := by
        cases e with
        | update now => exact absurd ⟨now, rfl⟩ hu
        | receive => rfl
        | use => rfl
      rw [hup]
      exact ih _ v hn' (q1.trans hs) (by rw [q2]; exact ht)

theorem reach (v t n : Nat) (h : v ≤ t + 410 * n) (h' : t ≤ v + 410 * n) : morphed v t n = t := by
  induction n generalizing v with
  | zero =>
    have : v = t := by omega
    rw [this]; rfl
  | succ n ih =>
    simp only [morphed]
    apply ih
    · simp only [towards]; split <;> omega
    · simp only [towards]; split <;> omega

theorem bug_target (s : Morph) (hb : s.bug = true) (ht : s.target = none) (e : Ev) : (s.step e).bug = true ∧ (s.step e).target = none := by
  have htr : ∀ s : Morph, s.bug = true → s.trigger = s := fun s h => if_pos h
  cases e with
  | update now => simp only [Morph.step, Morph.update, ht]; exact ⟨hb, trivial⟩
  | receive now date m =>
    simp only [Morph.step, Morph.message]
    split
    · exact ⟨hb, ht⟩
    · split
      · exact ⟨hb, ht⟩
      · split
        · rw [htr _ (by exact hb)]; exact ⟨hb, ht⟩
        · exact ⟨hb, ht⟩
    · split
      · simp only [Morph.press]
        split
        · exact ⟨hb, ht⟩
        · split
          · rw [htr _ (by exact hb)]; exact ⟨hb, ht⟩
          · exact ⟨hb, ht⟩
      · exact ⟨hb, ht⟩
    · split <;> exact ⟨hb, ht⟩
  | use now date u =>
    simp only [Morph.step]
    split <;> first | exact ⟨hb, ht⟩ | (rename_i heq; simp at heq)

end C135

/-- C135. With the bug not simulated, pushing the morph button starts morphing to the other end: after that, as long as nothing else concerns the morphing,
every update brings the reported state 410 nearer to its target. -/
theorem C135_fade (now : Int) (date : List Nat) (before after : List Ev) (hb : ∀ e ∈ before, Complete e) (ha : ∀ e ∈ after, Complete e)
    (hn : ∀ e ∈ after, NoMorph e) (t1 t2 : Int) (d1 d2 : List Nat) :
    ∃ v, answer ((initial false now date).run before).1 0 11 = [report 0 11 v] ∧
      answer ((initial false now date).run (before ++ .receive t1 d1 [176, 80, 0] :: .receive t2 d2 [176, 80, 1] :: after)).1 0 11 =
        [report 0 11 (morphed v (if v > 8191 then 0 else 16383) (updates after).length)] := by
  refine ⟨_, C135_morph_partial false now date before hb, ?_⟩
  have hm : ∀ v, v < 128 → Setup.Spec.Midi [176, 80, v] := fun v hv => .inl ⟨80, v, rfl, by decide, hv⟩
  rw [C135_morph_partial]
  · rw [List.foldl_append, List.foldl_cons, List.foldl_cons]
    have hbug : ∀ (es : List Ev) (s : Morph), (es.foldl Morph.step s).bug = s.bug := by
      intro es
      induction es with
      | nil => intro s; rfl
      | cons e es ih =>
        intro s
        rw [List.foldl_cons, ih]
        have htr : ∀ s : Morph, s.trigger.bug = s.bug := by intro s; unfold Morph.trigger; split <;> rfl
        cases e with
        | update now =>
          simp only [Morph.step, Morph.update]
          split
          · rfl
          · split <;> rfl
        | receive now date m =>
          simp only [Morph.step, Morph.message]
          split
          · rfl
          · split
            · rfl
            · split
              · rw [htr]
              · rfl
          · split
            · simp only [Morph.press]
              split
              · rfl
              · split
                · rw [htr]
                · rfl
            · rfl
          · split <;> rfl
        | use now date u =>
          simp only [Morph.step]
          split <;> first | rfl | (rename_i heq; simp at heq)
    generalize hs : before.foldl Morph.step { bug := false } = s
    have hsb : s.bug = false := by rw [← hs, hbug]
    have e : (s.step (.receive t1 d1 [176, 80, 0])).step (.receive t2 d2 [176, 80, 1]) =
        { s with button := 1, target := some (if s.state > 8191 then 0 else 16383) } := by
      have e1 : s.step (.receive t1 d1 [176, 80, 0]) = { s with button := 0 } := by
        simp only [Morph.step, Morph.message]
        by_cases hb0 : 0 = s.button
        · rw [if_pos hb0]
          cases s
          simp only at hb0
          subst hb0
          rfl
        · rw [if_neg hb0, if_neg (by decide)]
      rw [e1]
      simp [Morph.step, Morph.message, Morph.trigger, hsb]
    rw [e]
    have := C135.fading { s with button := 1, target := some (if s.state > 8191 then 0 else 16383) } s.state (if s.state > 8191 then 0 else 16383) after hn rfl
      (.inl rfl)
    rw [this]
  · intro e he
    rcases List.mem_append.1 he with h | h
    · exact hb e h
    · rcases List.mem_cons.1 h with rfl | h
      · exact ⟨hm 0 (by decide), by rintro (hx | hx) <;> simp [Sets] at hx⟩
      · rcases List.mem_cons.1 h with rfl | h
        · exact ⟨hm 1 (by decide), by rintro (hx | hx) <;> simp [Sets] at hx⟩
        · exact ha e h

/-- C135. It arrives at the target with the 40th update at the latest. -/
theorem C135_arrives (v n : Nat) (hv : v ≤ 16383) (hn : 40 ≤ n) :
    morphed v (if v > 8191 then 0 else 16383) n = if v > 8191 then 0 else 16383 := by
  split
  · exact C135.reach _ _ _ (by omega) (by omega)
  · exact C135.reach _ _ _ (by omega) (by omega)

example : answer ((initial false 0 []).run ([.receive 1 [] [176, 80, 0], .receive 2 [] [176, 80, 1]] ++ (List.range 40).map fun (i : Nat) => .update (5 * (i : Int)))).1 0 11 =
    [report 0 11 16383] ∧
    answer ((initial false 0 []).run ([.receive 1 [] [176, 80, 0], .receive 2 [] [176, 80, 1]] ++ (List.range 39).map fun (i : Nat) => .update (5 * (i : Int)))).1 0 11 =
    [report 0 11 15990] := by decide +kernel

/-- C135. In the editor the bug of the real device is simulated: updates do not change the morph state. -/
theorem C135_editor (now : Int) (date : List Nat) (es : List Ev) (he : ∀ e ∈ es, Complete e) (t : Int) :
    answer ((initial true now date).run (es ++ [.update t])).1 0 11 = answer ((initial true now date).run es).1 0 11 := by
  have hu : ∀ e ∈ es ++ [.update t], Complete e := by
    intro e h
    rcases List.mem_append.1 h with h | h
    · exact he e h
    · simp only [List.mem_singleton] at h; subst h; trivial
  rw [C135_morph_partial true now date es he, C135_morph_partial true now date _ hu]
  rw [List.foldl_append, List.foldl_cons, List.foldl_nil]
  have key : ∀ (es : List Ev) (s : Morph), s.bug = true → s.target = none → (es.foldl Morph.step s).target = none := by
    intro es
    induction es with
    | nil => intro s _ h; exact h
    | cons e es ih =>
      intro s h1 h2
      obtain ⟨g1, g2⟩ := C135.bug_target s h1 h2 e
      exact ih _ g1 g2
  have := key es { bug := true } rfl rfl
  simp only [Morph.step, Morph.update, this]

/-- The morph state can be set by PySwitch (CC 11) in the editor as well. -/
example : answer ((initial true 0 []).run [.receive 1 [] [176, 11, 64]]).1 0 11 = [report 0 11 8192] := by decide +kernel

/-- C135: a rig which has just been selected shall not be morphed unless somebody asks for it. When another rig is selected during the morphing, its morph
state is reset to 0, but the morphing goes on with the new rig. -/
theorem C135_continues_witness :
    let es : List Ev := [.receive 1 [] [176, 50, 1], .receive 2 [] [176, 80, 1], .update 5, .receive 6 [] [176, 51, 1]]
    answer ((initial false 0 []).run es).1 0 11 = [report 0 11 0] ∧
    answer ((initial false 0 []).run (es ++ [.update 10])).1 0 11 = [report 0 11 410] := by decide +kernel

/-- C135: morphing shall take 4 seconds (`setFadeSpeed(4)`), but the time does not count: with updates every 5 ms, as in the editor, it takes 0.2 seconds. -/
theorem C135_fast_witness :
    answer ((initial false 0 []).run ([.receive 1 [] [176, 80, 1]] ++ (List.range 40).map fun (i : Nat) => .update (5 * ((i : Int) + 1)))).1 0 11 = [report 0 11 16383] := by
  decide +kernel

end PySwitch.Props
