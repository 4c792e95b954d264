import Verif.Spec.Boomerang
import Verif.Props.Local
import Verif.Props.Wire
/-
Property C90: the actions for the Boomerang looper.
-/
namespace PySwitch.Props
open PySwitch.Local PySwitch.Boomerang

namespace C90

theorem sent_append (a b : List RotateEff) : sent (a ++ b) = sent a ++ sent b := by
  induction a with
  | nil => rfl
  | cons x a ih => cases x <;> simp [sent, ih]

theorem led_append (c : Option Nat) (a b : List RotateEff) : led c (a ++ b) = led (led c a) b := by
  induction a generalizing c with
  | nil => rfl
  | cons x a ih => cases x <;> simp [led, ih]

theorem sent_cyclic_other {α : Type} (l : List α) (k : Nat) (f : α → RotateEff) (hf : ∀ x, sent [f x] = []) :
    sent (cyclic l k f) = [] := by
  simp only [cyclic]
  split <;> simp_all [sent]

theorem led_cyclic_other {α : Type} (c : Option Nat) (l : List α) (k : Nat) (f : α → RotateEff)
    (hf : ∀ c x, led c [f x] = c) : led c (cyclic l k f) = c := by
  simp only [cyclic]
  split <;> simp_all [led]

theorem sent_display (c : Rotate) (k : Nat) : sent (expectedDisplay c k) = [] := by
  simp only [expectedDisplay, sent_append]
  rw [sent_cyclic_other _ _ _ (fun _ => rfl)]
  split
  · rw [sent_append, sent_cyclic_other _ _ _ (fun _ => rfl), sent_cyclic_other _ _ _ (fun _ => rfl)]
    rfl
  · rfl

theorem led_display (c : Rotate) (k : Nat) (x : Option Nat) (hc : c.ledColors ≠ []) :
    led x (expectedDisplay c k) = c.ledColors[k % c.ledColors.length]? := by
  have hlt : k % c.ledColors.length < c.ledColors.length := Nat.mod_lt _ (List.length_pos_iff.2 hc)
  simp only [expectedDisplay, led_append]
  have h1 : led x (cyclic c.ledColors k .led) = c.ledColors[k % c.ledColors.length]? := by
    simp [cyclic, List.getElem?_eq_getElem hlt, led]
  rw [h1]
  split
  · rw [led_append, led_cyclic_other _ _ _ _ (fun _ _ => rfl), led_cyclic_other _ _ _ _ (fun _ _ => rfl)]
  · rfl

theorem led_expected (c : Rotate) (hc : c.ledColors ≠ []) (es : List RotateEvent) (k : Nat)
    (x : Option Nat) (hx : x = c.ledColors[k % c.ledColors.length]?) :
    led x (expected c k es).flatten = c.ledColors[(k + releases es) % c.ledColors.length]? := by
  induction es generalizing k x with
  | nil => simpa [expected, led, releases] using hx
  | cons e es ih =>
    cases e with
    | push =>
      simp only [expected, List.flatten_cons, led_append, releases]
      rw [led_cyclic_other _ _ _ _ (fun _ _ => rfl)]
      exact ih k x hx
    | release =>
      simp only [expected, List.flatten_cons, led_append, releases, led_display c _ _ hc]
      rw [ih (k + 1) _ rfl, show k + 1 + releases es = k + (releases es + 1) by omega]
    | display =>
      simp only [expected, List.flatten_cons, led_append, releases, led_display c _ _ hc]
      exact ih k _ rfl

theorem sent_expected_none (c : Rotate) (hm : c.messages = []) (hr : c.messagesRelease = []) (es : List RotateEvent)
    (k : Nat) : sent (expected c k es).flatten = [] := by
  induction es generalizing k with
  | nil => rfl
  | cons e es ih =>
    cases e <;> simp [expected, sent_append, sent_display, cyclic, hm, hr, ih]

theorem sent_expected_two (c : Rotate) (a b : Nat) (hm : c.messages = [[207, a], [207, b]]) (hr : c.messagesRelease = [])
    (es : List RotateEvent) (k : Nat) :
    sent (expected c k es).flatten = (turns a b k es).map (fun p => [207, p]) := by
  induction es generalizing k with
  | nil => rfl
  | cons e es ih =>
    cases e with
    | push =>
      have h : sent (cyclic c.messages k .send) = [[207, if k % 2 = 0 then a else b]] := by
        rcases Nat.mod_two_eq_zero_or_one k with h | h <;> simp [cyclic, hm, h, sent]
      simp [expected, sent_append, turns, ih, h]
    | release => simp [expected, sent_append, turns, ih, sent_display, cyclic, hr]
    | display => simp [expected, sent_append, turns, ih, sent_display]

theorem mapM_ok {α β ε : Type} (f : α → Except ε β) (g : α → β) (l : List α) (h : ∀ x ∈ l, f x = .ok (g x)) :
    l.mapM f = .ok (l.map g) := by
  induction l with
  | nil => rfl
  | cons x l ih =>
    rw [List.mapM_cons, h x (by simp), ih (fun y hy => h y (by simp [hy]))]
    rfl

theorem runAll_ok (cs : List Rotate) (es : List RotateEvent) : runAll cs es = .ok (cs.map (fun c => expected c 0 es)) := by
  apply mapM_ok
  intro c _
  obtain ⟨st, h⟩ := C51_rotates c es
  rw [h]
  rfl

/-- The number of actions. -/
theorem length_actions (f : Fn) (p : Params) : (actions f p).length = max p.numLeds 1 := by
  simp only [actions]
  split <;> simp <;> omega

/-- Each of the actions. -/
theorem actions_get (f : Fn) (p : Params) (i : Nat) (hi : i < max p.numLeds 1) :
    (actions f p)[i]? = some (action f p i (if 1 < p.numLeds then (ledColors p).getD i [] else [p.bright, p.dark])) := by
  simp only [actions]
  split
  · rw [List.getElem?_map, List.getElem?_range (by omega)]
    rfl
  · have : i = 0 := by omega
    subst this
    rfl

theorem ledColors_get (p : Params) (i : Nat) (hi : i < p.numLeds) :
    (ledColors p).getD i [] = (List.range p.numLeds).map
      (fun (j : Nat) => if (i : Int) = p.numLeds - j - 1 then p.bright else p.dark) := by
  simp [ledColors, List.getD_eq_getElem?_getD, List.getElem?_map, List.getElem?_range hi]

theorem action_led (f : Fn) (p : Params) (i : Nat) (cs : List Nat) : (action f p i cs).ledColors = cs := by
  simp only [action]
  split <;> rfl

end C90

open C90

/-- C90. Over any history of presses, releases and display updates of the switch, there is no exception, and the bytes put
on the wire by all actions of the switch together are exactly the MIDI program changes on channel 16 (the channel is 15 in
zero-based counting) for the two programs of the function in turn: the first one if an even number of releases has been
before. -/
theorem C90_messages (f : Fn) (p : Params) (es : List RotateEvent) :
    ∃ effs, runAll (actions f p) es = .ok effs ∧
      ((effs.map (fun e => (sent e.flatten).flatten)).flatten =
        Wire.Spec.stream ((turns (listed f).1 (listed f).2 0 es).map (fun n => .pc n (some 15)))) := by
  rw [show listed f = f.programs by cases f <;> rfl]
  refine ⟨_, runAll_ok _ _, ?_⟩
  have hother : ∀ (i : Nat) cs, i ≠ 0 → sent (expected (action f p i cs) 0 es).flatten = [] := by
    intro i cs hi
    apply sent_expected_none <;> simp [action, hi]
  have hfirst : ∀ cs, sent (expected (action f p 0 cs) 0 es).flatten =
      (turns f.programs.1 f.programs.2 0 es).map (fun p => [207, p]) := by
    intro cs
    apply sent_expected_two <;> simp [action]
  have hstream : ((turns f.programs.1 f.programs.2 0 es).map (fun p => [207, p])).flatten =
      Wire.Spec.stream ((turns f.programs.1 f.programs.2 0 es).map (fun n => .pc n (some 15))) := by
    simp only [Wire.Spec.stream, List.map_map]
    rfl
  rw [List.map_map]
  simp only [actions]
  split
  · obtain ⟨n, hn⟩ : ∃ n, p.numLeds = n + 1 := ⟨p.numLeds - 1, by omega⟩
    rw [hn, List.range_succ_eq_map, List.map_cons, List.map_cons, List.flatten_cons]
    simp only [Function.comp, hfirst]
    rw [hstream]
    have hrest : (List.map ((fun e => (sent e.flatten).flatten) ∘ fun c => expected c 0 es)
        (List.map (fun i => action f p i ((ledColors p).getD i [])) (List.map Nat.succ (List.range n)))).flatten = [] := by
      simp [hother]
    rw [hrest, List.append_nil]
  · simp only [List.map_cons, List.map_nil, Function.comp, hfirst, List.flatten_cons, List.flatten_nil, List.append_nil]
    exact hstream

/-- C90. Reading those bytes, a receiver on channel 16 gets exactly these program changes, in order; a receiver on other
channels only gets nothing. -/
theorem C90_received (f : Fn) (es : List RotateEvent) (channels : List Nat) (bufSize n : Nat)
    (hn : n = (turns f.programs.1 f.programs.2 0 es).length) :
    (Wire.receives channels bufSize n
        (Wire.Spec.stream ((turns f.programs.1 f.programs.2 0 es).map (fun n => .pc n (some 15))))).1 =
      if channels.contains 15 then (turns f.programs.1 f.programs.2 0 es).map (fun n => some (.pc n (some 15)))
      else List.replicate n none := by
  have hv : ∀ k es, ∀ m ∈ (turns f.programs.1 f.programs.2 k es).map (fun n => Wire.Msg.pc n (some 15)),
      Wire.Spec.Valid m := by
    intro k es
    induction es generalizing k with
    | nil => simp [turns]
    | cons e es ih =>
      cases e with
      | push =>
        intro m hm
        simp only [turns, List.map_cons, List.mem_cons] at hm
        rcases hm with rfl | hm
        · constructor
          · split <;> cases f <;> simp [Fn.programs]
          · omega
        · exact ih k m hm
      | release => simpa [turns] using ih (k + 1)
      | display => simpa [turns] using ih k
  rw [C05_stream channels bufSize _ (hv 0 es) n]
  have hh : ∀ l : List Nat, (l.map (fun n => Wire.Msg.pc n (some 15))).filter (Wire.Spec.Heard channels) =
      if channels.contains 15 then l.map (fun n => Wire.Msg.pc n (some 15)) else [] := by
    intro l
    induction l with
    | nil => simp
    | cons x l ih =>
      have hx : Wire.Spec.Heard channels (.pc x (some 15)) = channels.contains 15 := rfl
      simp only [List.map_cons, List.filter_cons, hx]
      rw [ih]
      cases channels.contains 15 <;> rfl
  rw [hh]
  split
  · rw [List.map_map, List.take_append_of_le_length (by simp [hn]), List.take_of_length_le (by simp [hn])]
    rfl
  · simp

/-- C90. The twelve functions use 24 different program numbers: no function can be mistaken for another one, and the two
messages of a function are different. All are valid program numbers, and the listed ones. -/
theorem C90_programs (f g : Fn) :
    f.programs.1 < 128 ∧ f.programs.2 < 128 ∧ f.programs.1 ≠ f.programs.2 ∧
      f.programs = listed f ∧ (f ≠ g → f.programs.1 ≠ g.programs.1 ∧ f.programs.1 ≠ g.programs.2 ∧ f.programs.2 ≠ g.programs.2) := by
  cases f <;> cases g <;> simp [Fn.programs, listed]

/-- C90. With one LED group: once the switch has been shown, after k releases the LED is bright if and only if (bright and
dark being different) the next press sends the first program. -/
theorem C90_led (f : Fn) (p : Params) (hn : p.numLeds ≤ 1) (es : List RotateEvent) :
    ∃ effs, runAll (actions f p) (.display :: es) = .ok [effs] ∧
      led none effs.flatten = some (if releases es % 2 = 0 then p.bright else p.dark) := by
  have ha : actions f p = [action f p 0 [p.bright, p.dark]] := by
    simp only [actions]
    rw [if_neg (by omega)]
  refine ⟨expected (action f p 0 [p.bright, p.dark]) 0 (.display :: es), by rw [runAll_ok, ha]; rfl, ?_⟩
  have hl := action_led f p 0 [p.bright, p.dark]
  simp only [expected, List.flatten_cons, led_append]
  rw [led_expected _ (by rw [hl]; simp) es 0 _ (led_display _ _ _ (by rw [hl]; simp)), hl]
  rcases Nat.mod_two_eq_zero_or_one (releases es) with h | h <;> simp [h]

/-- C90. With n > 1 LED groups: after k releases exactly one of the n actions is bright, number n - 1 - (k modulo n). -/
theorem C90_leds (f : Fn) (p : Params) (hn : 1 < p.numLeds) (es : List RotateEvent) :
    ∃ effs, runAll (actions f p) (.display :: es) = .ok effs ∧ effs.length = p.numLeds ∧
      ∀ i, i < p.numLeds →
        (effs[i]?).bind (fun e => led none e.flatten) =
          some (if i + releases es % p.numLeds + 1 = p.numLeds then p.bright else p.dark) := by
  refine ⟨_, runAll_ok _ _, by rw [List.length_map, length_actions]; omega, ?_⟩
  intro i hi
  rw [List.getElem?_map, actions_get f p i (by omega), if_pos hn, ledColors_get p i hi]
  simp only [Option.map_some, Option.bind_some, expected, List.flatten_cons, led_append]
  have hl := action_led f p i ((List.range p.numLeds).map
      (fun (j : Nat) => if (i : Int) = p.numLeds - j - 1 then p.bright else p.dark))
  have hne : (action f p i ((List.range p.numLeds).map
      (fun (j : Nat) => if (i : Int) = p.numLeds - j - 1 then p.bright else p.dark))).ledColors ≠ [] := by
    rw [hl]
    intro h
    have := congrArg List.length h
    simp at this
    omega
  rw [led_expected _ hne es 0 _ (led_display _ _ _ hne), hl]
  have hlt : releases es % p.numLeds < p.numLeds := Nat.mod_lt _ (by omega)
  simp only [List.length_map, List.length_range, Nat.zero_add, List.getElem?_map, List.getElem?_range hlt,
    Option.map_some, Option.some.injEq]
  by_cases h : i + releases es % p.numLeds + 1 = p.numLeds
  · rw [if_pos h, if_pos (by omega)]
  · rw [if_neg h, if_neg (by omega)]

/-- C90. With two LED groups the bright one tells which program the next press selects; with three it does not: the LEDs
look the same before the first press and after three presses, but the next messages are different. -/
theorem C90_three_leds : ∃ (f : Fn) (p : Params) (es : List RotateEvent),
    p.numLeds = 3 ∧ p.bright ≠ p.dark ∧
    (∀ effs effs', runAll (actions f p) [.display] = .ok effs → runAll (actions f p) (.display :: es) = .ok effs' →
      effs.map (fun e => led none e.flatten) = effs'.map (fun e => led none e.flatten)) ∧
    turns f.programs.1 f.programs.2 0 (es ++ [.push]) ≠
      turns f.programs.1 f.programs.2 0 es ++ turns f.programs.1 f.programs.2 0 [.push] := by
  refine ⟨.once, ⟨"x", 9, 2, 1, true, 3⟩, presses 3, rfl, by decide, ?_, by decide⟩
  intro effs effs' h h'
  rw [runAll_ok] at h h'
  obtain rfl := Except.ok.inj h
  obtain rfl := Except.ok.inj h'
  decide +kernel

/-- The "Once" function with one LED, pressed three times. -/
example : runAll (actions .once ⟨"Once", 9, 2, 1, true, 1⟩) (.display :: presses 3) =
    .ok [[[.led 2, .labelText "Once", .labelColor 9],
      [.send [207, 10]], [.led 1, .labelText "Once", .labelColor 9],
      [.send [207, 18]], [.led 2, .labelText "Once", .labelColor 9],
      [.send [207, 10]], [.led 1, .labelText "Once", .labelColor 9]]] := by decide +kernel

/-- With two LED groups. -/
example : runAll (actions .once ⟨"Once", 9, 2, 1, true, 2⟩) (.display :: presses 1) =
    .ok [[[.led 1, .labelText "Once", .labelColor 9], [.send [207, 10]], [.led 2, .labelText "Once", .labelColor 9]],
      [[.led 2], [], [.led 1]]] := by decide +kernel

example : turns 10 18 0 (presses 3) = [10, 18, 10] := by decide

end PySwitch.Props
