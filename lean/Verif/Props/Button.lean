import Verif.Lemmas.Button
/-
C87 to C89: a foot switch for an on/off parameter as a whole, from the hardware to the wire, and in a closed loop with the device.
-/
namespace PySwitch.Props
open PySwitch PySwitch.Wire PySwitch.Mapping PySwitch.Button PySwitch.Button.Spec

/-! ### C87 -/

/-- The state of a switch which has been set up, with a client. -/
def chainStart (ch : Chain) (holdTime : Int) (off : Int) (cl : Client.State) : ChainState :=
  ⟨Switch.initial 600, Button.initial ch.button holdTime (.one (.num off)), cl⟩

theorem chainStart_rest {ch : Chain} {msg : Msg} {off : Int} (holdTime : Int) {cl : Client.State} (h : SetOnly ch.mid msg cl) :
    Rest ch msg off (chainStart ch holdTime off cl) ∧ (chainStart ch holdTime off cl).button.cb.state = false := by
  have hv : (Binary.updateDisplays ch.button.callback (Binary.initial (.one (.num off)))).1.value = none ∧
      (Binary.updateDisplays ch.button.callback (Binary.initial (.one (.num off)))).1.currentValue = some none ∧
      (Binary.updateDisplays ch.button.callback (Binary.initial (.one (.num off)))).1.disable = .one (.num off) ∧
      (Binary.updateDisplays ch.button.callback (Binary.initial (.one (.num off)))).1.state = false := by
    simp only [Binary.updateDisplays, Binary.initial, ne_eq, reduceCtorEq, not_false_eq_true, if_true]
    split <;> simp [Binary.evaluateValue, Binary.remember, Binary.evaluate]
  exact ⟨⟨rfl, ⟨hv.1, hv.2.1, hv.2.2.1⟩, h⟩, hv.2.2.2⟩

/-- C87. A foot switch whose action sets a parameter the device does not report (no request, fixed values for on and off), from the
hardware to the wire: for every history of readings of the switch, the bytes written to the port are exactly the set messages with
the values of the documented behaviour of the mode (`PushButton.Spec.expectedAll`), in order, and nothing else; nothing raises. -/
theorem C87_bytes (ch : Chain) (cl : Client.State) (msg : Msg) (on off : Nat) (holdTime : Int)
    (hset : (cl.mappings ch.mid).set = .one msg) (hty : (cl.mappings ch.mid).type = .numeric)
    (hreq : (cl.mappings ch.mid).request = .none) (hs : Client.Spec.Settable msg)
    (he : ch.button.callback.enable = .one on) (hm : ch.button.callback.hasMappingDisable = false)
    (hf : ch.button.feedback = false) (hon : on < 16384) (hoff : off < 16384)
    (bs : List Switch.Spec.Block) (hb : Undisturbed bs) :
    ∃ st', samples ch (chainStart ch holdTime off cl) (bs.flatMap Switch.Spec.Block.samples) = .ok (st',
      (PushButton.Spec.expectedAll ch.button.mode holdTime false (presses bs)).1.flatMap fun s =>
        toBytes ch.channel (Client.Spec.valued (if s then on else off) msg)) := by
  have hc : SetOnly ch.mid msg cl := ⟨⟨msg, hset, hs, fun _ => rfl⟩, hty, by rw [hreq]; rfl⟩
  obtain ⟨r1, r2⟩ := chainStart_rest (off := off) holdTime hc
  have hon' : (on : Int).toNat < 16384 := by simpa using hon
  have hoff' : (off : Int).toNat < 16384 := by simpa using hoff
  obtain ⟨st', h1, -, -⟩ := samples_blocks he hm hf hon' hoff' holdTime bs hb r1 rfl rfl
  rw [r2] at h1
  refine ⟨st', ?_⟩
  rw [h1]
  congr 2
  apply congrFun
  apply congrArg
  funext s
  cases s <;> simp

/-- The presses in momentary mode: on and off, for each of them. -/
theorem expectedAll_momentary (holdTime : Int) (ps : List PushButton.Spec.Press) :
    (PushButton.Spec.expectedAll .momentary holdTime false ps).1 = ps.flatMap fun _ => [true, false] := by
  induction ps with
  | nil => rfl
  | cons p ps ih => simp [PushButton.Spec.expectedAll, PushButton.Spec.expected, ih]

/-- From the documentation of the device: the numbers of the looper functions on page 0x7d. -/
def looperDoc : List (String × Nat) :=
  [("LoopRec", 88), ("LoopStop", 89), ("LoopTrig", 90), ("LoopRev", 91), ("Loop1/2", 92), ("LoopCanc", 93), ("LoopErase", 94)]

/-- A client which knows the parameter. -/
def clientOf (p : Table.Param) : Client.State := Client.initial (fun _ => p.mapping) 2000 (fun _ => true)

/-- C87. The looper switches: whatever the user does with the switch, each press writes the message switching the function on, and
each release the one switching it off, byte by byte. -/
theorem C87_looper : ∀ x ∈ looperDoc, ∃ p ∈ Table.looper, p.name = x.1 ∧
    ∀ (holdTime : Int) (channel : Nat) (bs : List Switch.Spec.Block), Undisturbed bs →
      let ch : Chain := { button := looper p, channel }
      ∃ st', samples ch (chainStart ch holdTime 0 (clientOf p)) (bs.flatMap Switch.Spec.Block.samples) = .ok (st',
        (presses bs).flatMap fun _ => setBytes 0x7d x.2 1 ++ setBytes 0x7d x.2 0) := by
  have key : ∀ (name : String) (n : Nat), n < 128 → ∀ p : Table.Param,
      p = { name := name, mapping := { set := .one (Table.nrpn Table.fSet 0x7d n) } } →
      ∀ (holdTime : Int) (channel : Nat) (bs : List Switch.Spec.Block), Undisturbed bs →
      let ch : Chain := { button := looper p, channel }
      ∃ st', samples ch (chainStart ch holdTime 0 (clientOf p)) (bs.flatMap Switch.Spec.Block.samples) = .ok (st',
        (presses bs).flatMap fun _ => setBytes 0x7d n 1 ++ setBytes 0x7d n 0) := by
    intro name n hn p hp holdTime channel bs hb ch
    subst hp
    obtain ⟨st', h⟩ := C87_bytes ch (clientOf { name, mapping := { set := .one (Table.nrpn Table.fSet 0x7d n) } }) (Table.nrpn Table.fSet 0x7d n) 1 0 holdTime rfl rfl rfl
      (by
        refine ⟨by simp, by simp, ?_⟩
        intro b hb
        simp only [Table.productType, Table.deviceId, Table.fSet, Table.instance_, List.mem_cons, List.not_mem_nil, or_false] at hb
        omega)
      rfl rfl rfl (by decide) (by decide) bs hb
    refine ⟨st', h.trans ?_⟩
    show Except.ok (st', List.flatMap _ (PushButton.Spec.expectedAll .momentary holdTime false (presses bs)).1) = _
    rw [expectedAll_momentary, List.flatMap_assoc]
    rfl
  intro x hx
  have hl : Table.looper = looperDoc.map
    (fun p : String × Nat => { name := p.1, mapping := { set := .one (Table.nrpn Table.fSet 0x7d p.2) } }) := rfl
  have hn : x.2 < 128 := by
    simp only [looperDoc, List.mem_cons, List.not_mem_nil, or_false] at hx
    rcases hx with rfl | rfl | rfl | rfl | rfl | rfl | rfl <;> decide
  rw [hl]
  exact ⟨_, List.mem_map.2 ⟨x, hx, rfl⟩, rfl, key x.1 x.2 hn _ rfl⟩

/-- C87. The same for the tap tempo: controller 30 on the channel of the port, value 1 for each press and 0 for each release. -/
theorem C87_tap_tempo (holdTime : Int) (channel : Nat) (hc : channel < 16) (bs : List Switch.Spec.Block) (hb : Undisturbed bs) :
    let ch : Chain := { button := tapTempo, channel }
    tapTempoParam.name = "Tap Tempo" ∧
    ∃ st', samples ch (chainStart ch holdTime 0 (clientOf tapTempoParam)) (bs.flatMap Switch.Spec.Block.samples) = .ok (st',
      (presses bs).flatMap fun _ => [0xB0 + channel, 30, 1] ++ [0xB0 + channel, 30, 0]) := by
  intro ch
  refine ⟨rfl, ?_⟩
  obtain ⟨st', h⟩ := C87_bytes ch (clientOf tapTempoParam) (Table.cc 30) 1 0 holdTime rfl rfl rfl
    trivial rfl rfl rfl (by decide) (by decide) bs hb
  refine ⟨st', h.trans ?_⟩
  show Except.ok (st', List.flatMap _ (PushButton.Spec.expectedAll .momentary holdTime false (presses bs)).1) = _
  rw [expectedAll_momentary, List.flatMap_assoc]
  have hst : 0xB0 ||| (channel &&& 0x0F) = 0xB0 + channel := by
    have : ∀ c : Fin 16, 0xB0 ||| (c.val &&& 0x0F) = 0xB0 + c.val := by decide
    exact this ⟨channel, hc⟩
  congr 2
  apply congrFun
  apply congrArg
  funext _
  simp [toBytes, Client.Spec.valued, Table.cc, hst, ch]

/-- A reading of the switch. -/
def rd (pushed : Bool) (now : Int) : Switch.Sample := { pushed, now }

example : Undisturbed [.idle (rd false 5), .press ⟨rd true 10, [rd true 20, rd true 30], rd false 40⟩, .press ⟨rd true 50, [], rd false 900⟩] := by
  intro b hb
  simp only [List.mem_cons, List.not_mem_nil, or_false] at hb
  rcases hb with rfl | rfl | rfl <;>
    simp [Switch.Spec.Block.Ok, Switch.Spec.Press.Ok, Switch.Spec.Block.samples, Switch.Spec.Press.samples, rd]

/-- Switching on and off at the right times, in the mode HOLD_MOMENTARY: a short press toggles, a long one is undone. -/
example : (PushButton.Spec.expectedAll .holdMomentary 600 false
    (presses [.idle (rd false 5), .press ⟨rd true 10, [rd true 20, rd true 30], rd false 40⟩, .press ⟨rd true 50, [], rd false 900⟩])).1 =
    [true, false, true] := by decide

/-- The settings of a history. -/
def settings (c : Config) (holdTime : Int) (off : Int) (h : List Op) : List (Bool × Binary.Sent) :=
  Binary.sets (run c (Button.initial c holdTime (.one (.num off))) h).1.flatten

/-- A part of a history: a press, or a reset or periodic update while the switch is up. -/
inductive Part where
  | press (t t' : Int)
  | reset
  | enable

/-- Its events at the action. -/
def Part.ops : Part → List Op
  | .press t t' => [.push t, .release t']
  | .reset => [.reset]
  | .enable => [.enable none]

/-- Resets of an action without a known value. -/
theorem reset_unknown {c : Config} {off : Int} {st : State} (h : Unknown off st) (o : Op) (ho : o = .reset ∨ o = .enable none) :
    Unknown off (Button.step c st o).1 ∧ (Button.step c st o).1.cb.state = false ∧ Binary.sets (Button.step c st o).2 = [] := by
  obtain ⟨p, v, s, d, u, cv, ds, cc⟩ := st
  obtain ⟨h1, h2, h3⟩ := h
  simp only at h1 h2 h3
  subst h1 h3
  rcases ho with rfl | rfl <;>
  · simp only [Button.step, Binary.step, Binary.reset, Binary.updateDisplays, ne_eq, reduceCtorEq, not_false_eq_true, if_true,
      Bool.true_or, decide_true, Binary.evaluateValue, Binary.evaluate, Binary.remember]
    refine ⟨⟨rfl, rfl, rfl⟩, trivial, ?_⟩
    simp only [Binary.display]
    cases c.callback.hasLabel <;> cases c.callback.hasText <;> rfl

/-- C87. For momentary switches, resets and updates while the switch is up change nothing: in every such history, each press sends
the value for on and each release the value for off, and nothing else is sent. -/
theorem C87_pairs (c : Config) (hmode : c.mode = .momentary) (on off : Int) (he : c.callback.enable = .one on)
    (hm : c.callback.hasMappingDisable = false) (hf : c.feedback = false) (holdTime : Int) (ps : List Part) :
    settings c holdTime off (ps.flatMap Part.ops) =
      ps.flatMap fun | .press _ _ => [(false, .one on), (false, .one off)] | _ => [] := by
  have key : ∀ (ps : List Part) (st : State), Unknown off st → st.cb.state = false →
      Binary.sets (Button.run c st (ps.flatMap Part.ops)).1.flatten =
        ps.flatMap fun | .press _ _ => [(false, .one on), (false, .one off)] | _ => [] := by
    intro ps
    induction ps with
    | nil => intro st _ _; rfl
    | cons p ps ih =>
      intro st hu hst
      cases p with
      | reset =>
        obtain ⟨r1, r2, r3⟩ := reset_unknown (c := c) hu .reset (.inl rfl)
        simp only [List.flatMap_cons, Part.ops, List.cons_append, List.nil_append, Button.run, List.flatten_cons, sets_append, r3]
        exact ih _ r1 r2
      | enable =>
        obtain ⟨r1, r2, r3⟩ := reset_unknown (c := c) hu (.enable none) (.inr rfl)
        simp only [List.flatMap_cons, Part.ops, List.cons_append, List.nil_append, Button.run, List.flatten_cons, sets_append, r3]
        exact ih _ r1 r2
      | press t t' =>
        obtain ⟨a1, a2, a3⟩ := step_unknown he hm hf hu t true
        obtain ⟨b1, b2, b3⟩ := step_unknown he hm hf a1 t' false
        simp only [if_true, Bool.false_eq_true, if_false] at a1 a2 a3 b1 b2 b3
        rw [a2] at b2 b3
        simp only [hmode, hst, PushButton.step, PushButton.push, PushButton.release, PushButton.setState, Bool.true_eq_false,
          Bool.false_eq_true, if_false, Option.getD_none, PushButton.State.mk.injEq] at a3 b2 b3
        simp only [List.flatMap_cons, Part.ops, List.cons_append, List.nil_append, Button.run, List.flatten_cons, sets_append]
        rw [a3, b3, ih _ b1 b2.1]
        rfl
  have hu := (chainStart_rest (ch := { button := c }) (msg := Table.cc 0) (off := off) holdTime
    (cl := clientOf (Table.control "" 0)) ⟨⟨_, rfl, trivial, fun _ => rfl⟩, rfl, rfl⟩)
  exact key ps _ hu.1.unknown hu.2

example : settings tapTempo 600 0 ([Part.enable, .press 10 20, .reset, .press 30 40].flatMap Part.ops) =
    [(false, .one 1), (false, .one 0), (false, .one 1), (false, .one 0)] := by decide

/-- C87 fails if the action is reset while the switch is held, for every looper switch and for the tap tempo: with a change of the
page (`reset`), and with the first periodic update after the start (`enable`), the message switching the function off is never sent,
although the switch is released. -/
theorem C87_stuck (c : Config) (hc : c = tapTempo ∨ ∃ p ∈ Table.looper, c = looper p) (holdTime t t' : Int) :
    settings c holdTime 0 [.push t, .reset, .release t'] = [(false, .one 1)] ∧
    settings c holdTime 0 [.push t, .enable none, .release t'] = [(false, .one 1)] := by
  rcases hc with rfl | ⟨p, hp, rfl⟩
  · exact ⟨rfl, rfl⟩
  · have : p.mapping.response.truthy = false := by
      simp only [Table.looper, List.mem_map] at hp
      obtain ⟨x, -, rfl⟩ := hp
      rfl
    have hl : looper p = { mode := .momentary, callback := { compare := .greaterEqual, reference := 1, enable := .one 1, reported := false, color := fun _ _ => 0 } } := by
      simp only [looper, defaultCallback, this]
    rw [hl]
    exact ⟨rfl, rfl⟩

end PySwitch.Props
