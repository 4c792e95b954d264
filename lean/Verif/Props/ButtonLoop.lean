import Verif.Lemmas.ButtonLoop
/-
C88 and C89: a foot switch for an on/off parameter in a closed loop with the device.
-/
namespace PySwitch.Props
open PySwitch PySwitch.Button PySwitch.Button.Spec

/-- The LEDs show what the device has: bright if the parameter is on in the device, dimmed otherwise. -/
def LedsAgree (c : Config) (w : World) : Prop := ∃ col b, w.shown = some (col, b) ∧ (b = true ↔ DeviceOn c w)

/-! ### C88: parameters which are requested -/

/-- C88. A switch for a parameter with fixed values for on and off, which is requested from the device: for every history of presses,
releases, periodic updates, resets, messages taken by the device, answers and requests given up, in any order and number, if nobody
changes the parameter at the device itself, then after all messages on their way have arrived and one more request has been
answered, the LEDs show the state of the device. -/
theorem C88_consistent (c : Config) (on off : Int) (hp : Proper c on off) (hf : c.feedback = false)
    (hr : c.callback.reported = true) (holdTime d : Int) (es : List Ev) (hk : NoKnob es) :
    let w := history c (start c holdTime (.one (.num off)) d) es
    ∀ n m, w.toDevice.length ≤ n → w.toDevice.length + w.fromDevice.length ≤ m →
      LedsAgree c (history c w (List.replicate n .device ++ List.replicate m .deliver ++ [.update, .device, .deliver])) := by
  intro w n m hn hm
  have hw : Waiting w := history_waiting c es (start_waiting c holdTime _ d)
  have hl : Loop c on off w := history_loop hp hf es hk (start_loop hp holdTime d)
  have hq := drain_quiet c hw n m hn hm
  have hl2 : Loop c on off (history c w (List.replicate n .device ++ List.replicate m .deliver)) := by
    refine history_loop hp hf _ ?_ hl
    intro e he v
    simp only [List.mem_append, List.mem_replicate] at he
    rcases he with ⟨-, rfl⟩ | ⟨-, rfl⟩ <;> simp
  rw [history_append]
  obtain ⟨r1, r2, r3, r4, -⟩ := round_loop hp hf hl2 hq
  refine ⟨_, _, r1.shown.1, ?_⟩
  rw [hr, Bool.and_true]
  unfold Agree at r4
  rw [r2] at r4
  exact r4

/-- C88. Such a quiet moment stays right: any number of further requests and answers leaves the LEDs as they are. -/
theorem C88_stable (c : Config) (on off : Int) (hp : Proper c on off) (hf : c.feedback = false) (hr : c.callback.reported = true)
    (holdTime d : Int) (es : List Ev) (hk : NoKnob es)
    (hq : Quiet (history c (start c holdTime (.one (.num off)) d) es)) (n : Nat) :
    LedsAgree c (history c (history c (start c holdTime (.one (.num off)) d) es)
      ((List.replicate (n + 1) [Ev.update, .device, .deliver]).flatten)) := by
  have key : ∀ (n : Nat) (w : World), Loop c on off w → Quiet w →
      Loop c on off (history c w ((List.replicate n [Ev.update, .device, .deliver]).flatten)) ∧
      Quiet (history c w ((List.replicate n [Ev.update, .device, .deliver]).flatten)) := by
    intro n
    induction n with
    | zero => intro w h1 h2; exact ⟨h1, h2⟩
    | succ n ih =>
      intro w h1 h2
      obtain ⟨r1, -, -, -, r5⟩ := round_loop hp hf h1 h2
      simp only [List.replicate_succ, List.flatten_cons, history_append]
      exact ih _ r1 r5
  obtain ⟨k1, k2⟩ := key n _ (history_loop hp hf es hk (start_loop hp holdTime d)) hq
  rw [List.replicate_succ', List.flatten_append, history_append]
  obtain ⟨r1, r2, r3, r4, -⟩ := round_loop hp hf k1 k2
  refine ⟨_, _, r1.shown.1, ?_⟩
  simp only [List.flatten_cons, List.flatten_nil, List.append_nil]
  rw [hr, Bool.and_true]
  unfold Agree at r4
  rw [r2] at r4
  exact r4

/-- All fixed effects and the tuner are such switches, in all modes but ONE_SHOT. -/
theorem C88_actions (mode : PushButton.Mode) (hm : mode ≠ .oneShot) :
    (∀ slot c, fixedEffectState slot mode = some c → Proper c 1 0 ∧ c.callback.reported = true ∧ c.feedback = false) ∧
    (Proper (tunerMode mode) 1 0 ∧ (tunerMode mode).callback.reported = true) := by
  constructor
  · intro slot c hc
    simp only [fixedEffectState, Option.map_eq_some_iff] at hc
    obtain ⟨p, hp, rfl⟩ := hc
    have hmem : p ∈ Table.fixed := by
      simp only [fixedEffect] at hp
      exact List.mem_of_getElem? hp
    have hall : ∀ p ∈ Table.fixed, p.mapping.response.truthy = true := by
      intro p hp
      simp only [Table.fixed, List.mem_cons, List.not_mem_nil, or_false] at hp
      rcases hp with rfl | rfl | rfl | rfl | rfl | rfl | rfl | rfl <;> rfl
    exact ⟨⟨by simp [defaultCallback], rfl, rfl, by simp [Binary.IsOn, defaultCallback], by simp [Binary.IsOn, defaultCallback], hm⟩,
      hall p hmem, rfl⟩
  · exact ⟨⟨by simp [tunerMode], rfl, rfl, by simp [Binary.IsOn, tunerMode, defaultCallback],
      by simp [Binary.IsOn, tunerMode, defaultCallback], hm⟩, rfl⟩

/-- A switch for a reported parameter. -/
def loopSwitch (feedback : Bool) : Config :=
  { mode := .latch, feedback, callback := { compare := .greaterEqual, reference := 1, enable := .one 1, color := fun _ _ => 7 } }

theorem loopSwitch_proper (fb : Bool) : Proper (loopSwitch fb) 1 0 :=
  ⟨by simp [loopSwitch], rfl, rfl, by simp [Binary.IsOn, loopSwitch], by simp [Binary.IsOn, loopSwitch], by simp [loopSwitch]⟩

/-- A history with crossing messages and a request which is given up: the value before is shown at the end. -/
example : NoKnob [.update, .push 1, .release 2, .device, .timeout, .push 3, .deliver, .reset, .release 4] ∧
    (history (loopSwitch false) (start (loopSwitch false) 600 (.one (.num 0)) 0)
      [.update, .push 1, .release 2, .device, .timeout, .push 3, .deliver, .reset, .release 4]).toDevice.length = 3 := by
  refine ⟨?_, by rfl⟩
  intro e he v
  simp only [List.mem_cons, List.not_mem_nil, or_false] at he
  rcases he with rfl | rfl | rfl | rfl | rfl | rfl | rfl | rfl | rfl <;> simp

theorem repeat_fix {c : Config} {w : World} {l : List Ev} (h : history c w l = w) (n : Nat) :
    history c w ((List.replicate n l).flatten) = w := by
  induction n with
  | zero => rfl
  | succ n ih => rw [List.replicate_succ, List.flatten_cons, history_append, h, ih]

/-- C88 fails if the parameter is changed back at the device before the next answer: the parameter is off and known to be off, a
request is on its way; the user switches it on, and then it is switched off at the device. From then on, each answer is the value
which is known already, and the LEDs show on however often the device is asked, although the parameter is off. -/
theorem C88_front_panel (n : Nat) :
    let c := loopSwitch false
    let w := history c (start c 600 (.one (.num 0)) 0)
      [.update, .device, .deliver, .update, .push 1, .release 2, .device, .device, .knob 0, .deliver]
    let w' := history c w ((List.replicate n [Ev.update, .device, .deliver]).flatten)
    Quiet w ∧ w'.device = 0 ∧ w'.shown = some (7, true) ∧ ¬ DeviceOn c w' := by
  intro c w w'
  have hw' : w' = w := repeat_fix (by decide +kernel) n
  rw [hw']
  refine ⟨by decide +kernel, by decide +kernel, by decide +kernel, ?_⟩
  have hd : w.device = 0 := by decide +kernel
  unfold DeviceOn
  rw [hd]
  show ¬ Binary.IsOn .greaterEqual 1 (some 0)
  simp [Binary.IsOn]

/-- C88. An answer which arrives when no request is waiting any more (it has timed out, or has been answered) is ignored: it is
taken from the line, and nothing else changes, after any history. -/
theorem C88_late (c : Config) (hf : c.feedback = false) (holdTime : Int) (disable : Binary.OneOrMany Binary.DVal) (d : Int)
    (es : List Ev) (hp : (history c (start c holdTime disable d) es).pending = false) :
    let w := history c (start c holdTime disable d) es
    let w' := history c (start c holdTime disable d) (es ++ [.deliver])
    w'.button = w.button ∧ w'.shown = w.shown ∧ w'.device = w.device ∧ w'.toDevice = w.toDevice ∧ w'.pending = false ∧
      w'.fromDevice = w.fromDevice.tail := by
  intro w w'
  have happ : ∀ (a b : List Ev) (x : World), history c x (a ++ b) = history c (history c x a) b := by
    intro a
    induction a with
    | nil => intros; rfl
    | cons e a ih => intro b x; exact ih b _
  have hw : w' = happen c w .deliver := happ es [.deliver] _
  rw [hw]
  simp only [happen]
  change w.pending = false at hp
  cases hl : w.fromDevice with
  | nil => exact ⟨rfl, rfl, rfl, rfl, hp, by simp [hl]⟩
  | cons v rest => simp [hf, hp]

/-- A request, its time-out, and then the answer of the device. -/
example : (history (loopSwitch false) (start (loopSwitch false) 600 (.one (.num 0)) 0) [.update, .device, .timeout]).pending = false ∧
    (history (loopSwitch false) (start (loopSwitch false) 600 (.one (.num 0)) 0) [.update, .device, .timeout]).fromDevice = [0] := by
  decide +kernel

/-- C88 fails for a switch which restores the value before ("auto"), if no such value has been seen: with the rig volume at or above
the boost value at the start, pressing the switch shows off, sends nothing, and the LEDs stay wrong however often the device is
asked. -/
theorem C88_auto (n : Nat) :
    let c : Config := { (volumeBoost 3 4 .latch).1 with feedback := false }
    let w := history c (start c 600 (volumeBoost 3 4 .latch).2 13000) [.update, .device, .deliver, .push 1, .release 2, .device, .deliver]
    let w' := history c w ((List.replicate n [Ev.update, .device, .deliver]).flatten)
    Quiet w ∧ w'.device = 13000 ∧ w'.shown = some (0, false) ∧ DeviceOn c w' := by
  intro c w w'
  have hw' : w' = w := repeat_fix (by decide +kernel) n
  rw [hw']
  refine ⟨by decide +kernel, by decide +kernel, by decide +kernel, ?_⟩
  have hd : w.device = 13000 := by decide +kernel
  unfold DeviceOn
  rw [hd]
  show Binary.IsOn .greaterEqual (nrpnValue 3 4) (some 13000)
  simp [Binary.IsOn, nrpnValue]

/-! ### C89: bidirectional parameters -/

/-- C89. A switch for a parameter which the device reports by itself: for every history of presses, releases, updates, resets,
changes at the device and deliveries in which no message is sent while one of the other direction is on its way, the LEDs show the
state of the device as soon as nothing is on its way. -/
theorem C89_consistent (c : Config) (on off : Int) (hp : Proper c on off) (hf : c.feedback = true)
    (hr : c.callback.reported = true) (holdTime d : Int) (es : List Ev)
    (hn : NoCrossing c (start c holdTime (.one (.num off)) d) es)
    (h1 : (history c (start c holdTime (.one (.num off)) d) es).toDevice = [])
    (h2 : (history c (start c holdTime (.one (.num off)) d) es).fromDevice = []) :
    LedsAgree c (history c (start c holdTime (.one (.num off)) d) es) := by
  have h := history_fed hp hf es hn (start_fed hp hf holdTime d)
  have hk := h.known h2
  simp only [eventually, h1, setsIn, List.filterMap_nil, List.getLast?_nil, Option.getD_none] at hk
  refine ⟨_, _, h.shown.1, ?_⟩
  rw [hr, Bool.and_true]
  have ha := h.agree
  unfold Agree at ha
  rw [hk] at ha
  exact ha

/-- Deliveries and takings are no crossings. -/
theorem noCrossing_append (c : Config) (w : World) (a b : List Ev) (h : NoCrossing c w a) (hb : ∀ e ∈ b, e = .device ∨ e = .deliver) :
    NoCrossing c w (a ++ b) := by
  induction a generalizing w with
  | nil =>
    induction b generalizing w with
    | nil => trivial
    | cons e b ih =>
      refine ⟨?_, ih (fun x hx => hb x (by simp [hx])) _ trivial⟩
      rcases hb e (by simp) with rfl | rfl <;> trivial
  | cons e a ih => exact ⟨h.1, ih _ h.2⟩

/-- C89. And this moment comes when everything on its way has arrived. -/
theorem C89_settles (c : Config) (on off : Int) (hp : Proper c on off) (hf : c.feedback = true)
    (hr : c.callback.reported = true) (holdTime d : Int) (es : List Ev)
    (hn : NoCrossing c (start c holdTime (.one (.num off)) d) es) :
    let w := history c (start c holdTime (.one (.num off)) d) es
    ∀ n m, w.toDevice.length ≤ n → w.toDevice.length + w.fromDevice.length ≤ m →
      LedsAgree c (history c w (List.replicate n .device ++ List.replicate m .deliver)) := by
  intro w n m h1 h2
  obtain ⟨q1, q2, -⟩ := drain_quiet c (history_waiting c es (start_waiting c holdTime _ d)) n m h1 h2
  rw [← history_append] at q1 q2 ⊢
  refine C89_consistent c on off hp hf hr holdTime d _ (noCrossing_append _ _ _ _ hn ?_) q1 q2
  intro e he
  simp only [List.mem_append, List.mem_replicate] at he
  rcases he with ⟨-, rfl⟩ | ⟨-, rfl⟩ <;> simp

/-- A history with changes of both sides. -/
example : NoCrossing (loopSwitch true) (start (loopSwitch true) 600 (.one (.num 0)) 0)
    [.deliver, .push 1, .release 2, .device, .knob 0, .deliver, .push 5, .release 6] :=
  ⟨trivial, rfl, rfl, trivial, rfl, trivial, rfl, rfl, trivial⟩

/-- C89 fails if messages cross: the parameter is changed at the device while the message of the switch is on its way. The device
takes the message of the switch (on), the switch takes the report sent before (off), and the LEDs stay wrong. -/
theorem C89_crossing (n : Nat) :
    let c := loopSwitch true
    let w := history c (start c 600 (.one (.num 0)) 0) [.deliver, .push 1, .release 2, .knob 0, .device, .deliver]
    let w' := history c w ((List.replicate n [Ev.update, .device, .deliver]).flatten)
    Quiet w ∧ w'.device = 1 ∧ w'.shown = some (7, false) ∧ DeviceOn c w' := by
  intro c w w'
  have hw' : w' = w := repeat_fix (by decide +kernel) n
  rw [hw']
  refine ⟨by decide +kernel, by decide +kernel, by decide +kernel, ?_⟩
  have hd : w.device = 1 := by decide +kernel
  unfold DeviceOn
  rw [hd]
  show Binary.IsOn .greaterEqual 1 (some 1)
  simp [Binary.IsOn]

end PySwitch.Props
