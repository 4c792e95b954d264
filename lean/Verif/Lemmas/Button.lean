import Verif.Lemmas.Binary
import Verif.Props.Client
import Verif.Props.PushButton
import Verif.Spec.Button
/-
Helper lemmas for a foot switch with an on/off parameter.
-/
namespace PySwitch.Button
open PySwitch PySwitch.Wire PySwitch.Mapping PySwitch.Button.Spec

/-! ### The action, as long as no value is known -/

/-- No value is known and "off" has a fixed value. -/
structure Unknown (off : Int) (st : State) : Prop where
  value : st.cb.value = none
  current : st.cb.currentValue = some none
  disable : st.cb.disable = .one (.num off)

theorem updateDisplays_unknown {c : Binary.Config} {st : Binary.State} (h : st.currentValue = some st.value) :
    (Binary.updateDisplays c st).1.value = st.value ∧ (Binary.updateDisplays c st).1.currentValue = st.currentValue ∧
    (Binary.updateDisplays c st).1.disable = st.disable ∧ (Binary.updateDisplays c st).1.state = st.state ∧
    Binary.sets (Binary.updateDisplays c st).2 = [] := by
  obtain ⟨v, s, d, u, cv, ds, cc⟩ := st
  simp only at h
  subst h
  simp only [Binary.updateDisplays, ne_eq, not_true_eq_false, if_false]
  split
  · simp only [Binary.display, true_and]
    cases c.hasLabel <;> cases c.hasText <;> rfl
  · simp [Binary.sets]

theorem sets_append (a b : List Binary.Eff) : Binary.sets (a ++ b) = Binary.sets a ++ Binary.sets b := by
  induction a with
  | nil => rfl
  | cons e a ih => cases e <;> simp [Binary.sets, ih]

/-- What is sent for a state. -/
def sentFor (on off : Int) (s : Bool) : Bool × Binary.Sent := (false, .one (if s then on else off))

theorem toggle_unknown {c : Binary.Config} {on off : Int} (he : c.enable = .one on) (hm : c.hasMappingDisable = false)
    {st : State} (h : Unknown off st) :
    Unknown off { st with cb := (Binary.toggle c st.cb none).1 } ∧
    (Binary.toggle c st.cb none).1.state = !st.cb.state ∧
    Binary.sets (Binary.toggle c st.cb none).2 = [sentFor on off (!st.cb.state)] := by
  obtain ⟨p, cb⟩ := st
  obtain ⟨h1, h2, h3⟩ := h
  simp only at h1 h2 h3
  have hu := updateDisplays_unknown (c := c) (st := { cb with state := !cb.state }) (by simp [h1, h2])
  obtain ⟨u1, u2, u3, u4, u5⟩ := hu
  simp only [Binary.toggle]
  refine ⟨⟨?_, ?_, ?_⟩, ?_, ?_⟩
  · simpa [h1] using u1
  · simpa [h2] using u2
  · simpa [h3] using u3
  · simpa using u4
  · rw [List.append_nil, sets_append, u5, List.append_nil]
    simp only [Binary.stateChanged, h3, hm, Bool.and_false, sets_append, Binary.sets, List.append_nil]
    cases cb.state <;> simp [Binary.sets, Binary.resolved, Binary.enableSent, he, sentFor]

theorem setState_unknown {c : Config} {on off : Int} (he : c.callback.enable = .one on)
    (hm : c.callback.hasMappingDisable = false) (hf : c.feedback = false) {st : State} (h : Unknown off st) (s : Bool) :
    Unknown off (setState c st s).1 ∧
    (⟨(setState c st s).1.cb.state, (setState c st s).1.period⟩ : PushButton.State) =
      (PushButton.setState ⟨st.cb.state, st.period⟩ s none).1 ∧
    Binary.sets (setState c st s).2 =
      (PushButton.Spec.notified (PushButton.setState ⟨st.cb.state, st.period⟩ s none).2).map (sentFor on off) := by
  by_cases hs : s = st.cb.state
  · simp [setState, PushButton.setState, hs, h, PushButton.Spec.notified, Binary.sets]
  · have hn : s = !st.cb.state := by cases s <;> cases hx : st.cb.state <;> simp_all
    obtain ⟨t1, t2, t3⟩ := toggle_unknown he hm h
    simp only [setState, PushButton.setState, if_neg hs, fedBack, hf]
    refine ⟨t1, ?_, ?_⟩
    · simp [t2, hn]
    · subst hn; exact t3

/-- As long as no value is known, the action and its callback together do what the action does alone. -/
theorem step_unknown {c : Config} {on off : Int} (he : c.callback.enable = .one on)
    (hm : c.callback.hasMappingDisable = false) (hf : c.feedback = false) {st : State} (h : Unknown off st) (now : Int) (b : Bool) :
    let o := if b then Op.push now else .release now
    let p := if b then PushButton.Event.push now none else .release now none
    Unknown off (step c st o).1 ∧
    (⟨(step c st o).1.cb.state, (step c st o).1.period⟩ : PushButton.State) = (PushButton.step c.mode ⟨st.cb.state, st.period⟩ p).1 ∧
    Binary.sets (step c st o).2 =
      (PushButton.Spec.notified (PushButton.step c.mode ⟨st.cb.state, st.period⟩ p).2).map (sentFor on off) := by
  have key := fun (st : State) (h : Unknown off st) s => setState_unknown (st := st) he hm hf h s
  have k0 : Unknown off { st with cb := { st.cb with state := false } } := ⟨h.value, h.current, h.disable⟩
  have k1 : Unknown off { st with period := st.period.reset now } := ⟨h.value, h.current, h.disable⟩
  have k2 : Unknown off { st with period := (st.period.exceeded now).2 } := ⟨h.value, h.current, h.disable⟩
  have triv : Unknown off st ∧ (⟨st.cb.state, st.period⟩ : PushButton.State) = ⟨st.cb.state, st.period⟩ ∧
    Binary.sets [] = (PushButton.Spec.notified []).map (sentFor on off) := ⟨h, rfl, rfl⟩
  obtain ⟨mode, cbc, fb⟩ := c
  cases b
  · cases mode <;> first | exact triv | exact key st h _ | skip
    · by_cases hx : (st.period.exceeded now).1
      · have := key _ k2 (!st.cb.state)
        simpa only [Bool.false_eq_true, if_false, step, release, PushButton.step, PushButton.release, hx, if_true] using this
      · simp only [Bool.false_eq_true, if_false, step, release, PushButton.step, PushButton.release, hx]
        exact ⟨k2, trivial, rfl⟩
    · have hu := updateDisplays_unknown (c := cbc) (st := { st.cb with state := false }) (by simp [h.value, h.current])
      obtain ⟨u1, u2, u3, u4, u5⟩ := hu
      simp only [Bool.false_eq_true, if_false, step, release, PushButton.step, PushButton.release, Binary.step]
      refine ⟨⟨by rw [u1]; exact h.value, by rw [u2]; exact h.current, by rw [u3]; exact h.disable⟩, ?_, ?_⟩
      · rw [u4]; rfl
      · rw [u5]; rfl
  · cases mode <;> first | exact triv | exact key st h _ | exact key _ k1 _ | exact key _ k0 true

/-! ### The client -/

/-- The mapping of the callback can be set, and nothing can be requested. -/
structure SetOnly (mid : Nat) (msg : Msg) (cl : Client.State) : Prop where
  set : ∃ m, (cl.mappings mid).set = .one m ∧ Client.Spec.Settable m ∧ ∀ v, Client.Spec.valued v m = Client.Spec.valued v msg
  type : (cl.mappings mid).type = .numeric
  request : (cl.mappings mid).request.truthy = false

theorem valued_settable {m : Msg} (hs : Client.Spec.Settable m) {v : Nat} (hv : v < 16384) :
    Client.Spec.Settable (Client.Spec.valued v m) ∧
    ∀ w, Client.Spec.valued w (Client.Spec.valued v m) = Client.Spec.valued w m := by
  cases m with
  | cc => exact ⟨trivial, fun _ => rfl⟩
  | pc => exact ⟨trivial, fun _ => rfl⟩
  | sysex man d =>
    obtain ⟨h6, h8, h7⟩ := hs
    have hl : (d.take 6).length = 6 := by simp; omega
    refine ⟨⟨by simp; omega, by simp; omega, ?_⟩, ?_⟩
    · intro b hb
      simp only [List.mem_append, List.mem_cons, List.not_mem_nil, or_false] at hb
      rcases hb with hb | rfl | rfl
      · exact h7 b (List.mem_of_mem_take hb)
      · omega
      · omega
    · intro w
      simp only [Client.Spec.valued]
      rw [List.take_append_of_le_length (by omega), List.take_of_length_le (by omega)]
  | unknown => exact absurd hs (by simp [Client.Spec.Settable])
  | bad => exact absurd hs (by simp [Client.Spec.Settable])

theorem client_set {mid : Nat} {msg : Msg} {cl : Client.State} (h : SetOnly mid msg cl) (v : Nat) (hv : v < 16384) :
    ∃ cl', Client.set cl mid (.one v) = .ok (cl', [.send (Client.Spec.valued v msg)]) ∧ SetOnly mid msg cl' := by
  obtain ⟨⟨m, h1, h2, h3⟩, h4, h5⟩ := h
  obtain ⟨s1, s2⟩ := valued_settable h2 hv
  refine ⟨cl.setMapping mid { cl.mappings mid with set := .one (Client.Spec.valued v m) }, ?_, ?_⟩
  · simp only [Client.set, h1, MsgField.truthy, h4, setValue, Props.setMsg_valued m h2 v hv, ← h3 v]
    rfl
  · refine ⟨⟨Client.Spec.valued v m, ?_, s1, fun w => by rw [s2, h3]⟩, ?_, ?_⟩
    · simp [Client.State.setMapping]
    · simp [Client.State.setMapping, h4]
    · simpa [Client.State.setMapping] using h5

/-- The bytes for one setting. -/
def bytesOf (ch : Chain) (msg : Msg) (x : Bool × Binary.Sent) : List Nat :=
  match x.2 with
  | .one n => toBytes ch.channel (Client.Spec.valued n.toNat msg)
  | .many _ => []

theorem callClient_bytes {ch : Chain} {msg : Msg} (now : Int) (es : List Binary.Eff)
    (hes : ∀ x ∈ Binary.sets es, ∃ n : Int, x.2 = .one n ∧ n.toNat < 16384) {cl : Client.State} (h : SetOnly ch.mid msg cl) :
    ∃ cl' es', callClient ch now cl es = .ok (cl', es') ∧ SetOnly ch.mid msg cl' ∧
      written ch es' = (Binary.sets es).flatMap (bytesOf ch msg) := by
  induction es generalizing cl with
  | nil => exact ⟨cl, [], rfl, h, rfl⟩
  | cons e es ih =>
    cases e with
    | set d v =>
      obtain ⟨n, hn, hn'⟩ := hes (d, v) (by simp [Binary.sets])
      simp only at hn
      subst hn
      obtain ⟨cl', e1, h'⟩ := client_set h n.toNat hn'
      obtain ⟨cl'', es', e2, h'', w⟩ := ih (fun x hx => hes x (by simp [Binary.sets, hx])) h'
      refine ⟨cl'', [.send (Client.Spec.valued n.toNat msg)] ++ es', ?_, h'', ?_⟩
      · simp only [callClient, toSetVal, e1, e2]
      · simp [written, w, Binary.sets, bytesOf]
    | request =>
      obtain ⟨cl'', es', e2, h'', w⟩ := ih (fun x hx => hes x (by simpa [Binary.sets] using hx)) h
      refine ⟨cl'', es', ?_, h'', by simp [w, Binary.sets]⟩
      have : Client.request cl now ch.mid (some 0) = .ok (cl, []) := by simp [Client.request, h.request]
      simp only [callClient, this, e2, List.nil_append]
    | led =>
      obtain ⟨cl'', es', e2, h'', w⟩ := ih (fun x hx => hes x (by simpa [Binary.sets] using hx)) h
      exact ⟨cl'', es', by simp [callClient, e2], h'', by simp [w, Binary.sets]⟩
    | label =>
      obtain ⟨cl'', es', e2, h'', w⟩ := ih (fun x hx => hes x (by simpa [Binary.sets] using hx)) h
      exact ⟨cl'', es', by simp [callClient, e2], h'', by simp [w, Binary.sets]⟩
    | text =>
      obtain ⟨cl'', es', e2, h'', w⟩ := ih (fun x hx => hes x (by simpa [Binary.sets] using hx)) h
      exact ⟨cl'', es', by simp [callClient, e2], h'', by simp [w, Binary.sets]⟩

/-! ### The whole chain -/

/-- State of the chain between two presses. -/
structure Rest (ch : Chain) (msg : Msg) (off : Int) (st : ChainState) : Prop where
  hold : st.switch.holdActive = false
  unknown : Unknown off st.button
  client : SetOnly ch.mid msg st.client

/-- One event of the action within the chain. -/
theorem callAction_one {ch : Chain} {msg : Msg} {on off : Int} (he : ch.button.callback.enable = .one on)
    (hm : ch.button.callback.hasMappingDisable = false) (hf : ch.button.feedback = false)
    (hon : on.toNat < 16384) (hoff : off.toNat < 16384) {st : ChainState} (h : Rest ch msg off st) (now : Int) (b : Bool) :
    let p := if b then PushButton.Event.push now none else .release now none
    let q := PushButton.step ch.button.mode ⟨st.button.cb.state, st.button.period⟩ p
    ∃ st', callAction ch now st [if b then .push 0 else .release 0] = .ok (st',
        (PushButton.Spec.notified q.2).flatMap fun s => toBytes ch.channel (Client.Spec.valued (if s then on else off).toNat msg)) ∧
      Rest ch msg off st' ∧ st'.switch = st.switch ∧
      (⟨st'.button.cb.state, st'.button.period⟩ : PushButton.State) = q.1 := by
  intro p q
  obtain ⟨s1, s2, s3⟩ := step_unknown he hm hf h.unknown now b
  have hes : ∀ x ∈ Binary.sets (step ch.button st.button (if b then Op.push now else .release now)).2,
      ∃ n : Int, x.2 = .one n ∧ n.toNat < 16384 := by
    intro x hx
    rw [s3] at hx
    obtain ⟨s, -, rfl⟩ := List.mem_map.1 hx
    cases s
    · exact ⟨off, rfl, hoff⟩
    · exact ⟨on, rfl, hon⟩
  obtain ⟨cl', es', e1, e2, e3⟩ := callClient_bytes now _ hes h.client
  refine ⟨⟨st.switch, (step ch.button st.button (if b then Op.push now else .release now)).1, cl'⟩, ?_, ⟨h.hold, s1, e2⟩, rfl, s2⟩
  have hr : (match (if b then Switch.Eff.push 0 else .release 0) with
      | .push _ => step ch.button st.button (.push now)
      | .release _ => step ch.button st.button (.release now)
      | _ => (st.button, [])) = step ch.button st.button (if b then Op.push now else .release now) := by
    cases b <;> rfl
  simp only [callAction]
  cases b <;> simp only [Bool.false_eq_true, if_false, if_true] at * <;> rw [e1] <;> simp only [List.append_nil] <;> rw [e3, s3] <;>
    simp only [List.flatMap_map] <;> rfl

theorem samples_append {ch : Chain} {st st' : ChainState} {xs ys : List Switch.Sample} {bs : List Nat}
    (h : samples ch st xs = .ok (st', bs)) :
    samples ch st (xs ++ ys) = match samples ch st' ys with
      | .error e => .error e
      | .ok (st'', bs') => .ok (st'', bs ++ bs') := by
  induction xs generalizing st bs with
  | nil =>
    simp only [samples, Except.ok.injEq, Prod.mk.injEq] at h
    obtain ⟨rfl, rfl⟩ := h
    simp only [List.nil_append]
    cases samples ch st ys <;> rfl
  | cons x xs ih =>
    simp only [samples] at h
    split at h
    · simp at h
    · rename_i st1 b1 h1
      split at h
      · simp at h
      · rename_i st2 b2 h2
        simp only [Except.ok.injEq, Prod.mk.injEq] at h
        obtain ⟨rfl, rfl⟩ := h
        simp only [List.cons_append, samples, h1, ih h2]
        cases samples ch st2 ys <;> simp

theorem sample_nothing {ch : Chain} {st : ChainState} (hh : st.switch.holdActive = false) (s : Switch.Sample)
    (hs : s.pushed = st.switch.pushedState) : sample ch st s = .ok (st, []) := by
  have : Switch.process { actions := [0] } st.switch s = (st.switch, []) := by
    cases hp : st.switch.pushedState <;> simp [Switch.process, hs, hp, hh, Switch.processPushed]
  simp only [sample, this, callAction]

theorem samples_held {ch : Chain} {st : ChainState} (hh : st.switch.holdActive = false) (ss : List Switch.Sample)
    (hs : ∀ s ∈ ss, s.pushed = st.switch.pushedState) : samples ch st ss = .ok (st, []) := by
  induction ss with
  | nil => rfl
  | cons s ss ih =>
    simp only [samples, sample_nothing hh s (hs s (by simp)), ih (fun x hx => hs x (by simp [hx]))]
    rfl

/-- The switch goes down or up. -/
theorem sample_edge {ch : Chain} {st : ChainState} (hh : st.switch.holdActive = false) (s : Switch.Sample)
    (hs : s.pushed = !st.switch.pushedState) (ho : s.override = none) (he : s.enabled 0 = true) :
    ∃ sw, sw.holdActive = false ∧ sw.pushedState = s.pushed ∧
      sample ch st s = callAction ch s.now { st with switch := sw } [if s.pushed then .push 0 else .release 0] := by
  cases hp : st.switch.pushedState
  · rw [hp] at hs
    have : Switch.process { actions := [0] } st.switch s = ({ st.switch with pushedState := true }, [.push 0]) := by
      simp [Switch.process, hs, hh, Switch.processPushed, hp, ho, Switch.pushActions, he]
    refine ⟨{ st.switch with pushedState := true }, hh, by simp [hs], ?_⟩
    simp only [sample, this, hs, Bool.not_false, if_true]
  · rw [hp] at hs
    have : Switch.process { actions := [0] } st.switch s =
        ({ st.switch with pushedState := false, holdActive := false, holdWasActive := false }, [.release 0]) := by
      simp [Switch.process, hs, hp, ho, Switch.release, Switch.releaseActions, he]
    refine ⟨{ st.switch with pushedState := false, holdActive := false, holdWasActive := false }, rfl, by simp [hs], ?_⟩
    simp only [sample, this, hs, Bool.not_true, Bool.false_eq_true, if_false]

/-- One press. -/
theorem samples_press {ch : Chain} {msg : Msg} {on off : Int} (he : ch.button.callback.enable = .one on)
    (hm : ch.button.callback.hasMappingDisable = false) (hf : ch.button.feedback = false)
    (hon : on.toNat < 16384) (hoff : off.toNat < 16384) {st : ChainState} (h : Rest ch msg off st)
    (hp : st.switch.pushedState = false) (p : Switch.Spec.Press) (hok : p.Ok) (hen : ∀ s ∈ p.samples, s.enabled 0 = true) :
    let x := PushButton.Spec.expected ch.button.mode st.button.cb.state
      (decide (p.last.now - p.first.now > st.button.period.interval))
    ∃ st', samples ch st p.samples = .ok (st', (x.atPress ++ x.atRelease).flatMap fun s =>
        toBytes ch.channel (Client.Spec.valued (if s then on else off).toNat msg)) ∧
      Rest ch msg off st' ∧ st'.switch.pushedState = false ∧ st'.button.cb.state = x.after ∧
      st'.button.period.interval = st.button.period.interval := by
  intro x
  obtain ⟨h1, h2, h3, h4⟩ := hok
  obtain ⟨sw₁, a1, a2, a3⟩ := sample_edge (ch := ch) h.hold p.first (by simp [h1, hp]) (h4 _ (by simp [Switch.Spec.Press.samples]))
    (hen _ (by simp [Switch.Spec.Press.samples]))
  obtain ⟨st₁, b1, b2, b3, b4⟩ := callAction_one (ch := ch) he hm hf hon hoff (st := { st with switch := sw₁ })
    ⟨a1, h.unknown, h.client⟩ p.first.now true
  simp only [h1, if_true] at a2 a3
  simp only [if_true] at b1 b3 b4
  rw [b1] at a3
  have hheld := samples_held (ch := ch) (st := st₁) b2.hold p.held (by rw [b3, a2]; exact h2)
  obtain ⟨sw₂, c1, c2, c3⟩ := sample_edge (ch := ch) b2.hold p.last (by rw [b3, a2, h3]; rfl) (h4 _ (by simp [Switch.Spec.Press.samples]))
    (hen _ (by simp [Switch.Spec.Press.samples]))
  obtain ⟨st₂, d1, d2, d3, d4⟩ := callAction_one (ch := ch) he hm hf hon hoff (st := { st₁ with switch := sw₂ })
    ⟨c1, b2.unknown, b2.client⟩ p.last.now false
  simp only [h3, Bool.false_eq_true, if_false] at c2 c3
  simp only [Bool.false_eq_true, if_false] at d1 d3 d4
  rw [d1] at c3
  have hx := Props.C31_press ch.button.mode ⟨st.button.cb.state, st.button.period⟩ ⟨p.first.now, p.last.now⟩ none none
  obtain ⟨e1, e2, e3, e4, e5⟩ := hx trivial trivial
  simp only at e1 e2 e3 e4 e5
  rw [← b4] at e3 e4 e5
  rw [← d4] at e4 e5
  rw [e1] at a3
  rw [e3] at c3
  refine ⟨st₂, ?_, d2, by rw [d3, c2], e4, e5⟩
  simp only [Switch.Spec.Press.samples, samples, a3]
  rw [samples_append hheld]
  simp only [samples, c3, List.append_nil, List.nil_append, List.flatMap_append]
  rfl

/-- A whole history. -/
theorem samples_blocks {ch : Chain} {msg : Msg} {on off : Int} (he : ch.button.callback.enable = .one on)
    (hm : ch.button.callback.hasMappingDisable = false) (hf : ch.button.feedback = false)
    (hon : on.toNat < 16384) (hoff : off.toNat < 16384) (holdTime : Int) (bs : List Switch.Spec.Block) (hb : Undisturbed bs)
    {st : ChainState} (h : Rest ch msg off st) (hp : st.switch.pushedState = false) (hi : st.button.period.interval = holdTime) :
    let x := PushButton.Spec.expectedAll ch.button.mode holdTime st.button.cb.state (presses bs)
    ∃ st', samples ch st (bs.flatMap Switch.Spec.Block.samples) = .ok (st', x.1.flatMap fun s =>
        toBytes ch.channel (Client.Spec.valued (if s then on else off).toNat msg)) ∧
      Rest ch msg off st' ∧ st'.button.cb.state = x.2 := by
  induction bs generalizing st with
  | nil => exact ⟨st, rfl, h, rfl⟩
  | cons b bs ih =>
    obtain ⟨hb1, hb2⟩ := hb b (by simp)
    have ih := fun {st : ChainState} => ih (st := st) (fun x hx => hb x (by simp [hx]))
    cases b with
    | idle s =>
      have h0 := samples_held (ch := ch) (st := st) h.hold [s] (by
        intro x hx
        rw [hp]
        simp only [List.mem_singleton] at hx
        rw [hx]
        exact hb1)
      obtain ⟨st', i1, i2, i3⟩ := ih h hp hi
      refine ⟨st', ?_, i2, i3⟩
      simp only [List.flatMap_cons, Switch.Spec.Block.samples]
      rw [samples_append h0, i1]
      rfl
    | press p =>
      obtain ⟨st₁, p1, p2, p3, p4, p5⟩ := samples_press he hm hf hon hoff h hp p hb1 (fun s hs => (hb2 s hs).2)
      obtain ⟨st', i1, i2, i3⟩ := ih p2 p3 (by rw [p5, hi])
      rw [p4, hi] at i1 i3
      rw [hi] at p1
      refine ⟨st', ?_, i2, i3⟩
      simp only [List.flatMap_cons, Switch.Spec.Block.samples]
      rw [samples_append p1, i1]
      simp only [presses, PushButton.Spec.expectedAll, List.flatMap_append, List.append_assoc]

end PySwitch.Button
