import Verif.Lemmas.StageTrack

/-
The invariants of `Model/Stage.lean`.
-/
namespace PySwitch.Stage
open PySwitch PySwitch.Wire PySwitch.Kemper PySwitch.Kemper.Virtual PySwitch.Kemper.Synced PySwitch.Kemper.Synced.Spec
open PySwitch.Stage.Spec
open PySwitch.Kemper.Setup hiding Ev initial

/-! ### What PySwitch writes -/

theorem vocab {j : Nat} {m : Msg} (h : m ∈ Shipped.Spec.mayWrite j ∨ m = Shipped.Spec.tuner false) :
    ∃ c v, m = .cc c v none ∧ c < 128 ∧ v < 128 ∧ (∀ k, k < 4 → c = 17 + k → ∃ s, m = Shipped.Spec.effect k s) ∧
      (c = 31 → ∃ s, m = Shipped.Spec.tuner s) := by
  have key : ∀ c v : Nat, c < 128 → v < 2 → ∃ c' v', Shipped.Spec.cc c v = .cc c' v' none ∧ c' < 128 ∧ v' < 128 ∧
      (∀ k, k < 4 → c' = 17 + k → ∃ s, Shipped.Spec.cc c v = Shipped.Spec.effect k s) ∧ (c' = 31 → ∃ s, Shipped.Spec.cc c v = Shipped.Spec.tuner s) := by
    intro c v hc hv
    refine ⟨c, v, rfl, hc, by omega, fun k _ e => ⟨decide (v = 1), ?_⟩, fun e => ⟨decide (v = 1), ?_⟩⟩
    · subst e
      have : v = 0 ∨ v = 1 := by omega
      rcases this with rfl | rfl <;> rfl
    · subst e
      have : v = 0 ∨ v = 1 := by omega
      rcases this with rfl | rfl <;> rfl
  have hm : ∃ c v, m = Shipped.Spec.cc c v ∧ c < 128 ∧ v < 2 := by
    rcases h with h | rfl
    · by_cases hj : j < 10
      · have := (by decide : ∀ j : Fin 10, ∀ m ∈ Shipped.Spec.mayWrite j.val, (match m with
          | .cc c v none => decide (c < 128 ∧ v < 2)
          | _ => false) = true) ⟨j, hj⟩ m h
        split at this
        · rename_i c v
          simp only [decide_eq_true_eq] at this
          exact ⟨c, v, rfl, this.1, this.2⟩
        · simp at this
      · exfalso
        unfold Shipped.Spec.mayWrite at h
        split at h
        all_goals first | omega | simp at h
    · exact ⟨31, 0, rfl, by omega, by omega⟩
  obtain ⟨c, v, rfl, hc, hv⟩ := hm
  exact key c v hc hv

theorem foot_vocab {st : Shipped.State} (h : Shipped.Inv st) (j : Nat) (p : Bool) (now : Int) :
    ∀ m ∈ (Shipped.step st (.process j p now)).2, m ∈ Shipped.Spec.mayWrite j ∨ m = Shipped.Spec.tuner false := by
  intro m hm
  rcases (Shipped.any_step h (.process j p now)).own j p now rfl m hm with a | ⟨-, a⟩
  · exact Or.inl a
  · exact Or.inr a

/-- A control change. -/
def Cc (b : List Nat) : Prop := ∃ c v, b = [176, c, v] ∧ c < 128 ∧ v < 128

/-! ### Everything but the values -/

structure Base (s : Stage) : Prop where
  inv : Shipped.Inv s.app
  view : ∃ p, View s.dev p
  toDev : ∀ b ∈ s.toDev, Cc b ∨ ∃ f l, b = beaconBytes f l ∧ (s.dev.proto.parameterSet = none → f % 2 = 1)
  set : s.dev.proto.parameterSet = none ∨ s.dev.proto.parameterSet = some 2

/-- The device has done something. -/
structure Devices (s s' : Stage) (out : List (List Nat)) : Prop where
  app : s'.app = s.app
  toApp : s'.toApp = s.toApp ++ out
  pop : s'.toDev = s.toDev ∨ ∃ b, s.toDev = b :: s'.toDev
  dev : ∀ page number i n, page ≠ 0 → page ≠ 124 → page ≠ 125 → Good page number s.dev.params i n →
    ∃ n', DevStep page number i n n' s.dev s'.dev out ∧
      (∀ b v, s.toDev = b :: s'.toDev → b.take 2 ≠ [176, 47] → Takes s.dev.params i b v → n' = v) ∧
      (s.dev.proto.parameterSet = none → s'.dev.proto.parameterSet = some 2 → Tail page number out n')
  offline : s.dev.proto.parameterSet = none →
    (s'.dev.proto.parameterSet = none ∧
      ∀ page number i n, page ≠ 0 → page ≠ 124 → page ≠ 125 → Good page number s.dev.params i n → Silent page number out) ∨
    (s'.dev.proto.parameterSet = some 2 ∧ out = setMessages s.dev.params 2)
  view : ∃ p, View s'.dev p

theorem ne_cons {α : Type} {l : List α} {b : α} : ¬ l = b :: l := by
  intro h
  have := congrArg List.length h
  simp at this

/-- A device event which takes nothing from the cable. -/
theorem devices_of {s : Stage} (h : Base s) (r : Device × List (List Nat)) {e : Setup.Ev} (he : s.dev.step e = r) (hpe : Setup.Spec.Proper e)
    (hd : ∀ page number i n, page ≠ 0 → page ≠ 124 → page ≠ 125 → Good page number s.dev.params i n →
      ∃ n', DevStep page number i n n' s.dev r.1 r.2)
    (ho : s.dev.proto.parameterSet = none → r.1.proto.parameterSet = none ∧
      ∀ page number i n, page ≠ 0 → page ≠ 124 → page ≠ 125 → Good page number s.dev.params i n → Silent page number r.2) :
    Devices s ⟨s.app, r.1, s.toDev, s.toApp ++ r.2⟩ r.2 := by
  obtain ⟨p, hv⟩ := h.view
  refine ⟨rfl, rfl, Or.inl rfl, fun page number i n h1 h2 h3 g => ?_, fun hn => Or.inl (ho hn), ⟨_, he ▸ (Setup.any_step hv hpe).1⟩⟩
  obtain ⟨n', k⟩ := hd page number i n h1 h2 h3 g
  refine ⟨n', k, fun b v e => absurd e ne_cons, fun e1 e2 => ?_⟩
  have := (ho e1).1
  dsimp only at e2
  rw [this] at e2
  simp at e2

theorem update_set {d : Virtual.State} (h : d.parameterSet = none) (now : Int) : (Virtual.update d now).1.parameterSet = none := by
  simp only [Virtual.update]
  repeat' split
  all_goals first | exact h | rfl

theorem dev_step {s : Stage} (h : Base s) (e : Ev) (he : (∃ now date, e = .devReceive now date) ∨ (∃ now, e = .devUpdate now) ∨
    e = .devTuner ∨ ∃ date u, e = .ui date u) : ∃ out, Devices s (step s e) out := by
  obtain ⟨p, hv⟩ := h.view
  rcases he with ⟨now, date, rfl⟩ | ⟨now, rfl⟩ | rfl | ⟨date, u, rfl⟩
  · cases hb : s.toDev with
    | nil =>
      have : step s (.devReceive now date) = s := by simp only [step, hb]
      rw [this]
      refine ⟨[], rfl, by simp, Or.inl rfl, fun page number i n h1 h2 h3 g => ⟨n, ⟨g, silent_nil.says n, fun _ _ => Or.inl ⟨rfl, silent_nil⟩⟩,
        fun b v e => absurd e ne_cons, fun e1 e2 => ?_⟩, fun hn => Or.inl ⟨hn, fun _ _ _ _ _ _ _ _ => silent_nil⟩, ⟨p, hv⟩⟩
      rw [e1] at e2; simp at e2
    | cons b rest =>
      have hs : step s (.devReceive now date) = ⟨s.app, (s.dev.receive now date b).1, rest, s.toApp ++ (s.dev.receive now date b).2⟩ := by
        simp only [step, hb]
      rw [hs]
      have hform := h.toDev b (by rw [hb]; simp)
      have hmidi : Setup.Spec.Midi b := by
        rcases hform with ⟨c, v, rfl, hc, hw⟩ | ⟨f, l, rfl, -⟩
        · exact Or.inl ⟨c, v, rfl, hc, hw⟩
        · exact Or.inr (Or.inr rfl)
      have hend : Ended b := by
        rcases hform with ⟨c, v, rfl, hc, hw⟩ | ⟨f, l, rfl, -⟩
        · simp [Ended]
        · simp [Ended, beaconBytes]
      refine ⟨_, rfl, rfl, Or.inr ⟨b, hb⟩, fun page number i n h1 h2 h3 g => ?_, fun hn => ?_,
        ⟨_, (Setup.any_step hv (e := .receive now date b) hmidi).1⟩⟩
      · obtain ⟨n', k1, k2, k3⟩ := receive_dev h1 g hv.product now date hend
        refine ⟨n', k1, fun b' v e h47 ht => ?_, fun e1 e2 => ?_⟩
        · rw [hb] at e
          simp only [List.cons.injEq, and_true] at e
          subst e
          exact k2 h47 v ht
        · rcases hform with ⟨c, v, rfl, hc, hw⟩ | ⟨f, l, rfl, hf⟩
          · dsimp only at e2
            rw [(receive_offline e1 hv.product now date c v).2, e1] at e2
            simp at e2
          · exact k3 ⟨f, l, rfl, hf e1⟩
      · rcases hform with ⟨c, v, rfl, hc, hw⟩ | ⟨f, l, rfl, hf⟩
        · obtain ⟨o1, o2⟩ := receive_offline hn hv.product now date c v
          refine Or.inl ⟨?_, fun _ _ _ _ _ _ _ _ => ?_⟩
          · show (s.dev.receive now date [176, c, v]).1.proto.parameterSet = none
            rw [o2]; exact hn
          · rw [o1]; exact silent_nil
        · obtain ⟨o1, o2⟩ := receive_beacon hv.product now date f l
          exact Or.inr ⟨o1, o2 (hf hn)⟩
  · exact ⟨_, devices_of h (s.dev.update now) (e := .update now) rfl trivial (fun page number i n _ _ _ g => ⟨n, update_dev g now⟩)
      fun hn => ⟨update_set hn now, fun _ _ _ _ _ _ _ _ => update_silent s.dev now⟩⟩
  · exact ⟨_, devices_of h s.dev.tuner (e := .tuner) rfl trivial (fun page number i n _ h2 h3 g => ⟨n, tuner_dev ⟨h3, h2⟩ g⟩)
      fun hn => ⟨hn, fun _ _ _ _ _ h2 h3 g => tuner_silent ⟨h3, h2⟩ g⟩⟩
  · refine ⟨_, devices_of h (s.dev.ui date u) (e := .ui date u) rfl trivial (fun page number i n h1 _ _ g => ui_dev h1 g date u) fun hn => ?_⟩
    obtain ⟨o1, o2⟩ := ui_offline hn date u
    exact ⟨by rw [o2]; exact hn, fun _ _ _ _ _ _ _ _ => by rw [o1]; exact silent_nil⟩

theorem Devices.base {s s' : Stage} {out : List (List Nat)} (d : Devices s s' out) (h : Base s) (hc : Connected s → Connected s') : Base s' := by
  have hset : (s'.dev.proto.parameterSet = none → s.dev.proto.parameterSet = none) ∧
      (s'.dev.proto.parameterSet = none ∨ s'.dev.proto.parameterSet = some 2) := by
    rcases h.set with e | e
    · refine ⟨fun _ => e, ?_⟩
      rcases d.offline e with ⟨a, -⟩ | ⟨a, -⟩
      · exact Or.inl a
      · exact Or.inr a
    · have := hc e
      exact ⟨fun e' => by rw [Connected, e'] at this; simp at this, Or.inr this⟩
  refine ⟨by rw [d.app]; exact h.inv, d.view, fun b hb => ?_, hset.2⟩
  have hmem : b ∈ s.toDev := by
    rcases d.pop with e | ⟨x, e⟩
    · rw [← e]; exact hb
    · rw [e]; simp [hb]
  rcases h.toDev b hmem with a | ⟨f, l, a, a'⟩
  · exact Or.inl a
  · exact Or.inr ⟨f, l, a, fun e => a' (hset.1 e)⟩

/-- PySwitch takes a message. -/
theorem hear_cases (s : Stage) : step s .appReceive = s ∨ ∃ b rest, s.toApp = b :: rest ∧
    (((fromMessageBytes [0] b).1 = none ∧ step s .appReceive = ⟨s.app, s.dev, s.toDev, rest⟩) ∨
    ∃ m, (fromMessageBytes [0] b).1 = some m ∧ step s .appReceive = ⟨takeReports s.app (reports m), s.dev, s.toDev, rest⟩) := by
  cases hb : s.toApp with
  | nil => left; simp only [step, hb]
  | cons b rest =>
    right
    refine ⟨b, rest, rfl, ?_⟩
    cases hm : (fromMessageBytes [0] b).1 with
    | none => left; exact ⟨rfl, by simp only [step, hb, hm]⟩
    | some m => right; exact ⟨m, rfl, by simp only [step, hb, hm]⟩

theorem base_step {s : Stage} (h : Base s) (e : Ev) (hp : Proper s e) : Base (step s e) := by
  have hdev := fun he => (dev_step h e he).elim fun out d => Devices.base d h hp.2
  cases e with
  | foot j p now =>
    refine ⟨(Shipped.any_step h.inv (.process j p now)).inv, h.view, fun b hb => ?_, h.set⟩
    simp only [step, List.mem_append, List.mem_map] at hb
    rcases hb with hb | ⟨m, hm, rfl⟩
    · exact h.toDev b hb
    · obtain ⟨c, v, rfl, hc, hv, -⟩ := vocab (foot_vocab h.inv j p now m hm)
      exact Or.inl ⟨c, v, rfl, hc, hv⟩
  | beacon f l =>
    refine ⟨h.inv, h.view, fun b hb => ?_, h.set⟩
    simp only [step, List.mem_append, List.mem_singleton] at hb
    rcases hb with hb | rfl
    · exact h.toDev b hb
    · exact Or.inr ⟨f, l, rfl, hp.1 f l rfl⟩
  | appReceive =>
    rcases hear_cases s with e | ⟨b, rest, -, ⟨-, e⟩ | ⟨m, -, e⟩⟩
    · rw [e]; exact h
    · rw [e]; exact ⟨h.inv, h.view, h.toDev, h.set⟩
    · rw [e]; exact ⟨(take_reports _ (reports_are m) s.app h.inv).1, h.view, h.toDev, h.set⟩
  | devReceive now date => exact hdev (Or.inl ⟨_, _, rfl⟩)
  | devUpdate now => exact hdev (Or.inr (Or.inl ⟨_, rfl⟩))
  | devTuner => exact hdev (Or.inr (Or.inr (Or.inl rfl)))
  | ui date u => exact hdev (Or.inr (Or.inr (Or.inr ⟨_, _, rfl⟩)))

theorem base_start (now : Int) (date : List Nat) : Base (start now date) := by
  refine ⟨Shipped.inv_initial, ⟨_, view_initial now date⟩, by simp [start], Or.inl ?_⟩
  obtain ⟨-, h⟩ := updateRig_offline (d := { proto := Virtual.initial 2 now, params := table date }) rfl date
  show (Setup.initial now date).proto.parameterSet = none
  unfold Setup.initial
  rw [h]
  rfl

/-! ### The tuner -/

def TunK (s : Stage) (n : Nat) : Prop := s.app.ov.on = decide (n = 1)
def TunW (s : Stage) (b : Bool) : Prop := s.app.ov.on = b

structure Tun (s : Stage) (n : Nat) : Prop where
  good : Good 127 126 s.dev.params 31 n
  track : s.dev.proto.parameterSet = some 2 → Track 127 126 31 (TunK s) (TunW s) s.toApp s.toDev n

theorem Tun.device {s : Stage} {n : Nat} (h : Tun s n) (hb : Base s) : device s 127 126 = n := by
  obtain ⟨p, hv⟩ := hb.view
  exact good_num h.good hv.shape (by decide +kernel)

theorem dev_tun {s s' : Stage} {out : List (List Nat)} (d : Devices s s' out) (hb : Base s) {n : Nat}
    (h : Tun s n) : ∃ n', Tun s' n' := by
  obtain ⟨p, hv⟩ := hb.view
  obtain ⟨n', k1, k2, k3⟩ := d.dev 127 126 31 n (by omega) (by omega) (by omega) h.good
  refine ⟨n', k1.good, fun e => ?_⟩
  have eK : TunK s' = TunK s := by unfold TunK; rw [d.app]
  have eW : TunW s' = TunW s := by unfold TunW; rw [d.app]
  rw [eK, eW, d.toApp]
  rcases hb.set with e0 | e0
  · exact Or.inl (k3 e0 e).prepend
  · refine (h.track e0).device (k1.tail e0 e) (fun a e => by rw [e]; exact a) fun b hw hl => ?_
    rcases d.pop with ep | ⟨x, ep⟩
    · rw [ep]; exact Or.inr hl
    · rw [ep] at hl
      rcases hl.pop with rfl | hl
      · left
        have := k2 _ (bit b) ep (by simp) (takes_tuner b hv.shape)
        rw [this]
        unfold TunK; rw [hw]
        cases b <;> rfl
      · exact Or.inr hl

/-- The tuner messages which are written. -/
theorem fold_tuner (out : List Msg) (hv : ∀ m ∈ out, ∃ j, m ∈ Shipped.Spec.mayWrite j ∨ m = Shipped.Spec.tuner false) (on : Bool) :
    (NoSet 31 (out.map (toBytes 0)) ∧
      out.foldl (fun on m => if m = Shipped.Spec.tuner true then true else if m = Shipped.Spec.tuner false then false else on) on = on) ∨
    ∃ b, LastSet 31 b (out.map (toBytes 0)) ∧
      out.foldl (fun on m => if m = Shipped.Spec.tuner true then true else if m = Shipped.Spec.tuner false then false else on) on = b := by
  induction out generalizing on with
  | nil => exact Or.inl ⟨by simp [NoSet], rfl⟩
  | cons m out ih =>
    rw [List.foldl_cons, List.map_cons]
    rcases ih (fun m hm => hv m (by simp [hm])) (if m = Shipped.Spec.tuner true then true else if m = Shipped.Spec.tuner false then false else on) with
      ⟨h1, h2⟩ | ⟨b, h1, h2⟩
    · by_cases hm : ∃ b, m = Shipped.Spec.tuner b
      · obtain ⟨b, rfl⟩ := hm
        refine Or.inr ⟨b, ⟨[], out.map (toBytes 0), by cases b <;> rfl, h1⟩, h2.trans ?_⟩
        cases b <;> simp [Shipped.Spec.tuner, Shipped.Spec.cc]
      · refine Or.inl ⟨?_, h2.trans ?_⟩
        · intro x hx
          rcases List.mem_cons.1 hx with rfl | hx
          · obtain ⟨j, hj⟩ := hv m (by simp)
            obtain ⟨c, v, rfl, -, -, -, h31⟩ := vocab hj
            intro e
            have : c = 31 := by simpa [toBytes] using e
            exact hm (h31 this)
          · exact h1 x hx
        · rw [if_neg fun e => hm ⟨_, e⟩, if_neg fun e => hm ⟨_, e⟩]
    · exact Or.inr ⟨b, h1.prepend (l := [toBytes 0 m]), h2⟩

theorem tun_step {s : Stage} (hb : Base s) (e : Ev) (hp : Proper s e) {n : Nat} (h : Tun s n) (hf : Fits s) : ∃ n', Tun (step s e) n' := by
  have hdev := fun he => (dev_step hb e he).elim fun out d => dev_tun d hb h
  have hn : n < 16384 := by rw [Fits, h.device hb] at hf; exact hf
  have hans := answering_ans (page := 127) (number := 126) (n := n) (by omega) (by omega) hn
  cases e with
  | foot j p now =>
    refine ⟨n, h.good, fun e => ?_⟩
    have a := (Shipped.any_step hb.inv (.process j p now)).on
    refine (h.track e).write (W := TunW s) (K := TunK s) ?_
    rcases fold_tuner (Shipped.step s.app (.process j p now)).2 (fun m hm => ⟨j, foot_vocab hb.inv j p now m hm⟩) s.app.ov.on with
      ⟨h1, h2⟩ | ⟨b, h1, h2⟩
    · refine Or.inl ⟨h1, fun n k => ?_, fun b k => ?_⟩
      · exact (a.trans h2).trans k
      · exact (a.trans h2).trans k
    · exact Or.inr ⟨b, h1, a.trans h2⟩
  | beacon f l =>
    refine ⟨n, h.good, fun e => (h.track e).write (W := TunW s) (K := TunK s) (Or.inl ⟨?_, fun _ k => k, fun _ k => k⟩)⟩
    intro b hb
    simp only [List.mem_singleton] at hb
    subst hb
    simp [beaconBytes]
  | appReceive =>
    rcases hear_cases s with e | ⟨b, rest, eb, ⟨hm, e⟩ | ⟨m, hm, e⟩⟩
    · rw [e]; exact ⟨n, h⟩
    · rw [e]
      refine ⟨n, h.good, fun e => ?_⟩
      have t := h.track e
      rw [eb] at t
      refine t.hear (fun _ => ⟨fun _ k => k, fun _ k => k⟩) fun e => ?_
      rw [e, ans_parse 127 126 n (by omega) (by omega) hn] at hm
      simp at hm
    · rw [e]
      obtain ⟨-, -, -, ho⟩ := take_reports _ (reports_are m) s.app hb.inv
      rw [fold_on] at ho
      refine ⟨n, h.good, fun e => ?_⟩
      have t := h.track e
      rw [eb] at t
      refine t.hear (fun hna => ?_) fun e => ?_
      · rw [listens_tuner.none hm hna] at ho
        exact ⟨fun _ k => ho.trans k, fun _ k => ho.trans k⟩
      · rw [e, ans_parse 127 126 n (by omega) (by omega) hn] at hm
        simp only [Option.some.injEq] at hm
        rw [← hm, listens_tuner.some n] at ho
        refine (show (takeReports s.app (reports m)).ov.on = decide (n = 1) from ?_)
        rw [← hm, ho]
        rw [Bool.eq_iff_iff]
        simp
        omega
  | devReceive now date => exact hdev (Or.inl ⟨_, _, rfl⟩)
  | devUpdate now => exact hdev (Or.inr (Or.inl ⟨_, rfl⟩))
  | devTuner => exact hdev (Or.inr (Or.inr (Or.inl rfl)))
  | ui date u => exact hdev (Or.inr (Or.inr (Or.inr ⟨_, _, rfl⟩)))

theorem tun_run (es : List Ev) {s : Stage} (hb : Base s) {n : Nat} (h : Tun s n) (ha : Along Fits s es) :
    Base (run s es) ∧ (∃ n', Tun (run s es) n') ∧ Fits (run s es) := by
  induction es generalizing s n with
  | nil => exact ⟨hb, ⟨n, h⟩, ha⟩
  | cons e es ih =>
    obtain ⟨a1, a2, a3⟩ := ha
    obtain ⟨n', h'⟩ := tun_step hb e a2 h a1
    exact ih (base_step hb e a2) h' a3

/-! ### The effect slots -/

def FxK (k : Nat) (s : Stage) (n : Nat) : Prop := (s.app.acts.fx k).cb.base.value = some (n : Int)
def FxW (k : Nat) (s : Stage) (b : Bool) : Prop := (s.app.acts.fx k).cb.base.value = some (if b then 1 else 0)

/-- A report of the tuner mode is on the cable. -/
def Pending (l : List (List Nat)) : Prop := ∃ pre u post, l = pre ++ ans 127 126 u :: post ∧ u < 16384

/-- A report of the type is on the cable, and one of the tuner mode behind it. -/
def TypeFirst (k : Nat) (l : List (List Nat)) : Prop :=
  ∃ pre t post, l = pre ++ ans (50 + k) 0 t :: post ∧ t < 16384 ∧ Pending post

theorem Pending.append {l o : List (List Nat)} (h : Pending l) : Pending (l ++ o) := by
  obtain ⟨pre, u, post, rfl, hu⟩ := h
  exact ⟨pre, u, post ++ o, by simp, hu⟩

theorem TypeFirst.append {k : Nat} {l o : List (List Nat)} (h : TypeFirst k l) : TypeFirst k (l ++ o) := by
  obtain ⟨pre, u, post, rfl, hu, hp⟩ := h
  exact ⟨pre, u, post ++ o, by simp, hu, hp.append⟩

theorem TypeFirst.pending {k : Nat} {l : List (List Nat)} (h : TypeFirst k l) : Pending l := by
  obtain ⟨pre, u, post, rfl, hu, pre', u', post', rfl, hu'⟩ := h
  exact ⟨pre ++ ans (50 + k) 0 u :: pre', u', post', by simp, hu'⟩

theorem Pending.pop {b : List Nat} {rest : List (List Nat)} (h : Pending (b :: rest)) : (∃ u < 16384, b = ans 127 126 u) ∨ Pending rest := by
  obtain ⟨pre, u, post, e, hu⟩ := h
  match pre, e with
  | [], e => simp only [List.nil_append, List.cons.injEq] at e; exact Or.inl ⟨u, hu, e.1⟩
  | x :: pre, e =>
    simp only [List.cons_append, List.cons.injEq] at e
    exact Or.inr ⟨pre, u, post, e.2, hu⟩

theorem TypeFirst.pop {k : Nat} {b : List Nat} {rest : List (List Nat)} (h : TypeFirst k (b :: rest)) :
    ((∃ u < 16384, b = ans (50 + k) 0 u) ∧ Pending rest) ∨ TypeFirst k rest := by
  obtain ⟨pre, u, post, e, hu, hp⟩ := h
  match pre, e with
  | [], e => simp only [List.nil_append, List.cons.injEq] at e; exact Or.inl ⟨⟨u, hu, e.1⟩, by rw [e.2]; exact hp⟩
  | x :: pre, e =>
    simp only [List.cons_append, List.cons.injEq] at e
    exact Or.inr ⟨pre, u, post, e.2, hu, hp⟩

structure Led (k : Nat) (s : Stage) (t n : Nat) : Prop where
  type : Good (50 + k) 0 s.dev.params (5 + 2 * k) t
  state : Good (50 + k) 3 s.dev.params (6 + 2 * k) n
  weak : Weak (s.app.acts.fx k)
  sound : Sound s.app.ov.on (s.app.acts.fx k) ∨ Pending s.toApp
  types : ∀ b ∈ s.toApp, Answering (50 + k) 0 b → ∃ t' : Nat, b = ans (50 + k) 0 t' ∧ t' < 16384 ∧ Effects.categoryOf (some (t' : Int)) ≠ 0
  off : s.dev.proto.parameterSet = none → (s.app.acts.fx k).cb.fxtype = none ∧ Silent (50 + k) 0 s.toApp
  first : s.dev.proto.parameterSet = some 2 → (s.app.acts.fx k).cb.fxtype = none → TypeFirst k s.toApp
  track : s.dev.proto.parameterSet = some 2 → Track (50 + k) 3 (17 + k) (FxK k s) (FxW k s) s.toApp s.toDev n

theorem find_slot {k : Nat} (hk : k < 4) : T.findIdx? (fun p => p.send == some (.nrpn [50 + k, 0])) = some (5 + 2 * k) ∧
    T.findIdx? (fun p => p.send == some (.nrpn [50 + k, 3])) = some (6 + 2 * k) := by
  have : k = 0 ∨ k = 1 ∨ k = 2 ∨ k = 3 := by omega
  rcases this with rfl | rfl | rfl | rfl <;> exact ⟨by decide +kernel, by decide +kernel⟩

theorem Led.device {k : Nat} (hk : k < 4) {s : Stage} {t n : Nat} (h : Led k s t n) (hb : Base s) :
    device s (50 + k) 0 = t ∧ device s (50 + k) 3 = n := by
  obtain ⟨p, hv⟩ := hb.view
  exact ⟨good_num h.type hv.shape (find_slot hk).1, good_num h.state hv.shape (find_slot hk).2⟩

theorem dev_led {k : Nat} (hk : k < 4) {s s' : Stage} {out : List (List Nat)} (d : Devices s s' out) (hb : Base s) (hb' : Base s')
    (hc : Connected s → Connected s') {t n u : Nat} (h : Led k s t n) (hu : Tun s u) (hu14 : u < 16384) (hl0 : Loaded k s) (hl : Loaded k s') :
    ∃ t' n', Led k s' t' n' := by
  obtain ⟨p, hv⟩ := hb.view
  obtain ⟨t', j1, -, -⟩ := d.dev (50 + k) 0 _ t (by omega) (by omega) (by omega) h.type
  obtain ⟨n', k1, k2, k3⟩ := d.dev (50 + k) 3 _ n (by omega) (by omega) (by omega) h.state
  have eK : FxK k s' = FxK k s := by unfold FxK; rw [d.app]
  have eW : FxW k s' = FxW k s := by unfold FxW; rw [d.app]
  have et : device s' (50 + k) 0 = t' := by
    obtain ⟨p', hv'⟩ := hb'.view
    exact good_num j1.good hv'.shape (find_slot hk).1
  obtain ⟨l1, l2, -⟩ := hl
  rw [et] at l1 l2
  refine ⟨t', n', j1.good, k1.good, by rw [d.app]; exact h.weak, ?_, ?_, ?_, ?_, ?_⟩
  · rw [d.app, d.toApp]
    rcases h.sound with a | a
    · exact Or.inl a
    · exact Or.inr a.append
  · rw [d.toApp]
    intro b hx ha
    rcases List.mem_append.1 hx with hx | hx
    · exact h.types b hx ha
    · exact ⟨t', j1.says b hx ha, l2, l1⟩
  · intro e
    have e0 : s.dev.proto.parameterSet = none := by
      rcases hb.set with e0 | e0
      · exact e0
      · have := hc e0
        rw [Connected, e] at this; simp at this
    obtain ⟨o1, o2⟩ := h.off e0
    rcases d.offline e0 with ⟨-, q⟩ | ⟨q, -⟩
    · rw [d.app, d.toApp]
      exact ⟨o1, o2.append (q _ _ _ _ (by omega) (by omega) (by omega) h.type)⟩
    · rw [e] at q; simp at q
  · intro e ef
    rw [d.app] at ef
    rw [d.toApp]
    rcases hb.set with e0 | e0
    · rcases d.offline e0 with ⟨q, -⟩ | ⟨-, q⟩
      · rw [e] at q; simp at q
      · obtain ⟨pre, mid, post, e1⟩ := setMessages_order h.type hu.good (by omega)
        exact ⟨s.toApp ++ pre, t, mid ++ ans 127 126 u :: post, by rw [q, e1]; simp, (h.device hk hb).1 ▸ hl0.2.1, mid, u, post, rfl, hu14⟩
    · exact (h.first e0 ef).append
  · intro e
    rw [eK, eW, d.toApp]
    rcases hb.set with e0 | e0
    · exact Or.inl (k3 e0 e).prepend
    · refine (h.track e0).device (k1.tail e0 e) (fun a e => by rw [e]; exact a) fun b hw hl => ?_
      rcases d.pop with ep | ⟨x, ep⟩
      · rw [ep]; exact Or.inr hl
      · rw [ep] at hl
        rcases hl.pop with rfl | hl
        · left
          have := k2 _ (bit b) ep (by simp; omega) (takes_effect hk b hv.shape)
          rw [this]
          unfold FxK; rw [hw]
          cases b <;> rfl
        · exact Or.inr hl

/-- The effect messages which are written. -/
theorem wrote_bytes {k : Nat} (hk : k < 4) {out : List Msg} (hv : ∀ m ∈ out, ∃ j, m ∈ Shipped.Spec.mayWrite j ∨ m = Shipped.Spec.tuner false)
    (h : NoEff k out) : NoSet (17 + k) (out.map (toBytes 0)) := by
  intro x hx
  obtain ⟨m, hm, rfl⟩ := List.mem_map.1 hx
  obtain ⟨j, hj⟩ := hv m hm
  obtain ⟨c, v, rfl, -, -, he, -⟩ := vocab hj
  intro e
  have : c = 17 + k := by simpa [toBytes] using e
  obtain ⟨b, eb⟩ := he k hk this
  exact h _ hm b eb

theorem foot_led {k : Nat} (hk : k < 4) {s : Stage} (hb : Base s) (j : Nat) (p : Bool) (now : Int) {t n : Nat} (h : Led k s t n) :
    Led k (step s (.foot j p now)) t n := by
  have m := foot_move hb.inv hk j p now
  have hv := fun x hx => (⟨j, foot_vocab hb.inv j p now x hx⟩ : ∃ j, x ∈ Shipped.Spec.mayWrite j ∨ x = Shipped.Spec.tuner false)
  refine ⟨h.type, h.state, m.weak h.weak, ?_, h.types, fun e => ?_, fun e ef => ?_, fun e => ?_⟩
  · rcases h.sound with a | a
    · exact Or.inl (m.sound h.weak a)
    · exact Or.inr a
  · exact ⟨m.fxtype.trans (h.off e).1, (h.off e).2⟩
  · exact h.first e (m.fxtype.symm.trans ef)
  · refine (h.track e).write (K := FxK k s) (W := FxW k s) ?_
    rcases m.value with ⟨h1, h2⟩ | ⟨pre, b, post, h1, h2, h3⟩
    · exact Or.inl ⟨wrote_bytes hk hv h1, fun _ a => h2.trans a, fun _ a => h2.trans a⟩
    · refine Or.inr ⟨b, ?_, h3⟩
      rw [h1]
      refine ⟨pre.map (toBytes 0), post.map (toBytes 0), by cases b <;> simp [Shipped.Spec.effect, Shipped.Spec.cc, toBytes, bit], ?_⟩
      exact wrote_bytes hk (fun x hx => hv x (by rw [h1]; simp [hx])) h2

theorem hear_led {k : Nat} (hk : k < 4) {s : Stage} (hb : Base s) {t n : Nat} (h : Led k s t n) (hl : Loaded k s) :
    Led k (step s .appReceive) t n := by
  obtain ⟨hd1, hd2⟩ := h.device hk hb
  obtain ⟨-, -, hn⟩ := hl
  rw [hd2] at hn
  rcases hear_cases s with e | ⟨b, rest, eb, ⟨hm, e⟩ | ⟨m, hm, e⟩⟩
  · rw [e]; exact h
  · rw [e]
    have hna : ∀ page number, ¬Answering page number b := by
      rintro page number ⟨m, e, -⟩
      rw [hm] at e; simp at e
    refine ⟨h.type, h.state, h.weak, ?_, fun x hx => h.types x (by rw [eb]; simp [hx]), fun e => ?_, fun e ef => ?_, fun e => ?_⟩
    · rcases h.sound with a | a
      · exact Or.inl a
      · rw [eb] at a
        rcases a.pop with ⟨u, hu, e⟩ | a
        · exact absurd (answering_ans (by omega) (by omega) hu) (e ▸ hna 127 126)
        · exact Or.inr a
    · obtain ⟨o1, o2⟩ := h.off e
      rw [eb] at o2
      exact ⟨o1, fun x hx => o2 x (by simp [hx])⟩
    · have a := h.first e ef
      rw [eb] at a
      rcases a.pop with ⟨⟨u, hu, e⟩, -⟩ | a
      · exact absurd (answering_ans (by omega) (by omega) hu) (e ▸ hna (50 + k) 0)
      · exact a
    · have tr := h.track e
      rw [eb] at tr
      refine tr.hear (fun _ => ⟨fun _ k => k, fun _ k => k⟩) fun e => ?_
      rw [e, ans_parse _ _ n (by omega) (by omega) hn] at hm
      simp at hm
  · obtain ⟨-, -, hfx, hon⟩ := take_reports _ (reports_are m) s.app hb.inv
    have hfx := hfx k hk
    rw [fold_reports hk] at hfx
    rw [fold_on] at hon
    obtain ⟨f1, f2⟩ := fxMsg_fields k (s.app.acts.fx k) m
    -- what is told
    have tT : ¬Answering (50 + k) 0 b → told (Table.effectType k) m = none := (listens_type hk).none hm
    have tS : ¬Answering (50 + k) 3 b → told (Table.effectState k) m = none := (listens_state hk).none hm
    have vT : ∀ t' < 16384, b = ans (50 + k) 0 t' → told (Table.effectType k) m = some (t' : Int) := by
      intro t' ht e
      rw [e, ans_parse _ _ t' (by omega) (by omega) ht] at hm
      simp only [Option.some.injEq] at hm
      rw [← hm]; exact (listens_type hk).some t'
    have vS : b = ans (50 + k) 3 n → told (Table.effectState k) m = some (n : Int) := by
      intro e
      rw [e, ans_parse _ _ n (by omega) (by omega) hn] at hm
      simp only [Option.some.injEq] at hm
      rw [← hm]; exact (listens_state hk).some n
    have vU : ∀ u < 16384, b = ans 127 126 u → told Table.tunerMode m = some (u : Int) := by
      intro u hu e
      rw [e, ans_parse _ _ u (by omega) (by omega) hu] at hm
      simp only [Option.some.injEq] at hm
      rw [← hm]; exact listens_tuner.some u
    have hty : ∀ t', told (Table.effectType k) m = some t' → Effects.categoryOf (some t') ≠ 0 := by
      intro t' e
      by_cases ha : Answering (50 + k) 0 b
      · obtain ⟨t1, a1, a2, a3⟩ := h.types b (by rw [eb]; simp) ha
        rw [vT t1 a2 a1] at e
        cases e
        exact a3
      · rw [tT ha] at e; simp at e
    obtain ⟨w1, w2, w3⟩ := fxMsg_weak (k := k) (m := m) h.weak hty
    have hunk : (fxMsg k (s.app.acts.fx k) m).cb.fxtype = none → (s.app.acts.fx k).cb.fxtype = none ∧ told (Table.effectType k) m = none := by
      intro e
      rw [f1] at e
      cases ht : told (Table.effectType k) m with
      | none => rw [ht] at e; exact ⟨e, rfl⟩
      | some t' => rw [ht] at e; simp at e
    have htun : ∀ v, told Table.tunerMode m = some v → Sound (takeReports s.app (reports m)).ov.on (fxMsg k (s.app.acts.fx k) m) := by
      intro v e
      by_cases hv : v = 1
      · left; rw [hon, e, hv]; rfl
      · exact Or.inr (Or.inr (w3 v e hv))
    rw [e]
    refine ⟨h.type, h.state, ?_, ?_, fun x hx => h.types x (by rw [eb]; simp [hx]), fun e => ?_, fun e ef => ?_, fun e => ?_⟩
    · show Weak ((takeReports s.app (reports m)).acts.fx k)
      rw [hfx]; exact w1
    · show Sound (takeReports s.app (reports m)).ov.on ((takeReports s.app (reports m)).acts.fx k) ∨ Pending rest
      rw [hfx]
      cases et : told Table.tunerMode m with
      | some v => exact Or.inl (htun v et)
      | none =>
        rw [et] at hon
        rcases h.sound with a | a
        · by_cases ef : (s.app.acts.fx k).cb.fxtype = none
          · -- the type may have arrived
            cases ety : told (Table.effectType k) m with
            | none => exact Or.inl (Or.inr (Or.inl (by rw [f1, ety]; exact ef)))
            | some t' =>
              right
              have hans : Answering (50 + k) 0 b := Classical.byContradiction fun hc => by rw [tT hc] at ety; simp at ety
              rcases hb.set with e0 | e0
              · exact absurd hans ((h.off e0).2 b (by rw [eb]; simp))
              · have a := h.first e0 ef
                rw [eb] at a
                rcases a.pop with ⟨-, a⟩ | a
                · exact a
                · exact a.pending
          · rcases a with a | a | a
            · exact Or.inl (Or.inl (hon.trans a))
            · exact absurd a ef
            · exact Or.inl (Or.inr (Or.inr (w2 ef a)))
        · rw [eb] at a
          rcases a.pop with ⟨u, hu, e⟩ | a
          · rw [vU u hu e] at et; simp at et
          · exact Or.inr a
    · obtain ⟨o1, o2⟩ := h.off e
      rw [eb] at o2
      refine ⟨?_, fun x hx => o2 x (by simp [hx])⟩
      show ((takeReports s.app (reports m)).acts.fx k).cb.fxtype = none
      rw [hfx, f1, tT (o2 b (by simp))]
      exact o1
    · have ef : ((takeReports s.app (reports m)).acts.fx k).cb.fxtype = none := ef
      rw [hfx] at ef
      obtain ⟨u1, u2⟩ := hunk ef
      have a := h.first e u1
      rw [eb] at a
      rcases a.pop with ⟨⟨u, hu, e⟩, -⟩ | a
      · rw [vT u hu e] at u2; simp at u2
      · exact a
    · have tr := h.track e
      rw [eb] at tr
      have hval : ((takeReports s.app (reports m)).acts.fx k).cb.base.value =
          (match told (Table.effectState k) m with | some v => some v | none => (s.app.acts.fx k).cb.base.value) := by rw [hfx]; exact f2
      refine tr.hear (fun hna => ?_) fun e => ?_
      · rw [tS hna] at hval
        exact ⟨fun _ a => hval.trans a, fun _ a => hval.trans a⟩
      · rw [vS e] at hval
        exact hval

theorem led_step {k : Nat} (hk : k < 4) {s : Stage} (hb : Base s) (e : Ev) (hp : Proper s e) {t n u : Nat} (h : Led k s t n) (hu : Tun s u)
    (hu14 : u < 16384) (hl : Loaded k s) (hl' : Loaded k (step s e)) : ∃ t' n', Led k (step s e) t' n' := by
  have hdev := fun he => (dev_step hb e he).elim fun out d => dev_led hk d hb (base_step hb e hp) hp.2 h hu hu14 hl hl'
  cases e with
  | foot j p now => exact ⟨t, n, foot_led hk hb j p now h⟩
  | beacon f l =>
    refine ⟨t, n, h.type, h.state, h.weak, h.sound, h.types, h.off, h.first, fun e => ?_⟩
    refine (h.track e).write (W := FxW k s) (K := FxK k s) (Or.inl ⟨?_, fun _ k => k, fun _ k => k⟩)
    intro b hb
    simp only [List.mem_singleton] at hb
    subst hb
    simp [beaconBytes]
  | appReceive => exact ⟨t, n, hear_led hk hb h hl⟩
  | devReceive now date => exact hdev (Or.inl ⟨_, _, rfl⟩)
  | devUpdate now => exact hdev (Or.inr (Or.inl ⟨_, rfl⟩))
  | devTuner => exact hdev (Or.inr (Or.inr (Or.inl rfl)))
  | ui date u => exact hdev (Or.inr (Or.inr (Or.inr ⟨_, _, rfl⟩)))

theorem along_head {C : Stage → Prop} {s : Stage} {es : List Ev} (h : Along C s es) : C s := by
  cases es with
  | nil => exact h
  | cons e es => exact h.1

theorem led_run {k : Nat} (hk : k < 4) (es : List Ev) {s : Stage} (hb : Base s) {t n u : Nat} (h : Led k s t n) (hu : Tun s u)
    (ha : Along (fun s => Loaded k s ∧ Fits s) s es) :
    Base (run s es) ∧ (∃ t' n', Led k (run s es) t' n') ∧ Loaded k (run s es) := by
  induction es generalizing s t n u with
  | nil => exact ⟨hb, ⟨t, n, h⟩, ha.1⟩
  | cons e es ih =>
    obtain ⟨⟨a1, a1'⟩, a2, a4⟩ := ha
    have hu14 : u < 16384 := by rw [Fits, hu.device hb] at a1'; exact a1'
    obtain ⟨t', n', h'⟩ := led_step hk hb e a2 h hu hu14 a1 (along_head a4).1
    obtain ⟨u', hu'⟩ := tun_step hb e a2 hu a1'
    exact ih (base_step hb e a2) h' hu' a4

theorem led_start {k : Nat} (hk : k < 4) (now : Int) (date : List Nat) : ∃ t n, Led k (start now date) t n := by
  obtain ⟨t, ht⟩ := good_type hk now date
  obtain ⟨n, hn⟩ := good_state hk now date
  have hset : (start now date).dev.proto.parameterSet = none := by
    rcases (base_start now date).set with e | e
    · exact e
    · exfalso
      obtain ⟨-, h⟩ := updateRig_offline (d := { proto := Virtual.initial 2 now, params := table date }) rfl date
      have : (start now date).dev.proto = Virtual.initial 2 now := h
      rw [this] at e
      simp [Virtual.initial] at e
  refine ⟨t, n, ht, hn, ⟨rfl, fun t e => by cases e⟩, Or.inl (Or.inr (Or.inl rfl)), by simp [start], fun _ => ⟨?_, by simp [start, Silent]⟩,
    fun e => ?_, fun e => ?_⟩
  · rfl
  · rw [hset] at e; simp at e
  · rw [hset] at e; simp at e

theorem tun_start (now : Int) (date : List Nat) : ∃ n, Tun (start now date) n := by
  obtain ⟨n, hn⟩ := good_tuner now date
  refine ⟨n, hn, fun e => ?_⟩
  obtain ⟨-, h⟩ := updateRig_offline (d := { proto := Virtual.initial 2 now, params := table date }) rfl date
  have : (start now date).dev.proto = Virtual.initial 2 now := h
  rw [this] at e
  simp [Virtual.initial] at e

end PySwitch.Stage
