import Verif.Lemmas.Stage

/-!
C136: the shipped configuration at the (virtual) device: when everything which was sent has arrived, the LED of an effect switch
and the tuner display of PySwitch show the state of the device, whoever has changed it and in which order the messages have been
processed.
-/

namespace PySwitch.Props
open PySwitch PySwitch.Wire PySwitch.Kemper PySwitch.Stage PySwitch.Stage.Spec
open PySwitch.Kemper.Synced (ans answering_sysex)

/-- C136: for any history of foot switches, beacons, messages delivered in any interleaving, and uses of the user interface of the device:
when no message about the effect of slot `k` is under way and no report of the tuner mode, the device is connected, and PySwitch is not in
tuner mode, the LED of the switch is lit exactly if the effect is on at the device. Missing for the full statement: the slot must not be
empty at any time (`C136_emptied_witness`). That no report of the tuner mode is under way is necessary (`C136_early_witness`): after a
switch has been pressed before the connection, it is this report which sets the LED right. -/
theorem C136_led_partial {k : Nat} (hk : k < 4) (now : Int) (date : List Nat) (es : List Ev)
    (h : Along (fun s => Loaded k s ∧ Fits s) (start now date) es) (hc : Connected (run (start now date) es))
    (hr : Reported (50 + k) 3 (run (start now date) es)) (hd : Delivered (17 + k) (run (start now date) es))
    (hm : Reported 127 126 (run (start now date) es)) (ht : (run (start now date) es).app.ov.on = false) :
    (run (start now date) es).app.acts.lit k = some (decide (1 ≤ device (run (start now date) es) (50 + k) 3)) := by
  obtain ⟨t0, n0, h0⟩ := led_start hk now date
  obtain ⟨u0, hu0⟩ := tun_start now date
  obtain ⟨hb, ⟨t, n, hl⟩, -, -, hn⟩ := led_run hk es (base_start now date) h0 hu0 h
  have he := (hl.device hk hb).2
  rw [he] at hn ⊢
  have hv := (hl.track hc).quiet (answering_ans (by omega) (by omega) hn) hr hd
  have hp : ¬Pending (run (start now date) es).toApp := by
    rintro ⟨pre, u, post, e, hu⟩
    exact hm (ans 127 126 u) (by rw [e]; simp) (answering_ans (by omega) (by omega) hu)
  have hs : Right ((run (start now date) es).app.acts.fx k) := by
    rcases hl.sound with (a | a | a) | a
    · rw [ht] at a; simp at a
    · exact absurd (hl.first hc a).pending hp
    · exact a
    · exact absurd a hp
  rw [(hb.inv.acts.fx k hk).lit ht, hs, hv]
  simp only [onOf]
  congr 1
  rw [Bool.eq_iff_iff]
  simp
  omega

/-- C136: PySwitch is in tuner mode exactly if the device is, when no message about that is under way. -/
theorem C136_tuner (now : Int) (date : List Nat) (es : List Ev) (h : Along Fits (start now date) es)
    (hc : Connected (run (start now date) es)) (hr : Reported 127 126 (run (start now date) es)) (hd : Delivered 31 (run (start now date) es)) :
    (run (start now date) es).app.ov.on = decide (device (run (start now date) es) 127 126 = 1) := by
  obtain ⟨n0, h0⟩ := tun_start now date
  obtain ⟨hb, ⟨n, hl⟩, hf⟩ := tun_run es (base_start now date) h0 h
  have he := hl.device hb
  rw [Fits, he] at hf
  rw [he]
  exact (hl.track hc).quiet (answering_ans (by omega) (by omega) hf) hr hd

/-! ### The hypotheses can be met -/

namespace C136

/-- The connection is made, and all values arrive. -/
def connect : List Ev := [.beacon 1 60, .devReceive 0 []] ++ List.replicate 23 .appReceive

/-- The switch 3 (slot C) is pressed and released. -/
def press : List Ev := [.foot 2 true 1000, .foot 2 false 1100]

/-- A history with an effect switched on with the switch, one switched off at the device, and the tuner switched on at the device. -/
def concert : List Ev :=
  connect ++ press ++ [.devReceive 1200 [], .ui [] (.value 50 3 (.num 0)), .ui [] (.value 127 126 (.num 1)), .devUpdate 1300, .devTuner] ++
    List.replicate 6 .appReceive ++ [.ui [] (.value 127 126 (.num 0)), .appReceive]

/-- Can be computed. -/
def alongB (C : Stage → Bool) : Stage → List Ev → Bool
  | s, [] => C s
  | s, e :: es => C s && (match e with | .beacon flags _ => s.dev.proto.parameterSet.isSome || flags % 2 == 1 | _ => true) &&
      (s.dev.proto.parameterSet != some 2 || (step s e).dev.proto.parameterSet == some 2) && alongB C (step s e) es

def loadedB (k : Nat) (s : Stage) : Bool :=
  decide ((Effects.categoryOf (some (device s (50 + k) 0 : Int)) ≠ 0 ∧ device s (50 + k) 0 < 16384 ∧ device s (50 + k) 3 < 16384) ∧
    device s 127 126 < 16384)

theorem alongB_spec {C : Stage → Prop} {CB : Stage → Bool} (hC : ∀ s, CB s = true → C s) (es : List Ev) (s : Stage)
    (h : alongB CB s es = true) : Along C s es := by
  induction es generalizing s with
  | nil => exact hC s h
  | cons e es ih =>
    simp only [alongB, Bool.and_eq_true] at h
    obtain ⟨⟨⟨h1, h2⟩, h3⟩, h5⟩ := h
    refine ⟨hC s h1, ⟨?_, ?_⟩, ih _ h5⟩
    · rintro flags lease rfl hn
      simpa [hn] using h2
    · intro hc
      rw [Connected] at hc
      simpa [hc, Connected] using h3

theorem loaded (k : Nat) (s : Stage) (h : loadedB k s = true) : Loaded k s ∧ Fits s := by
  simpa only [loadedB, Loaded, Fits, decide_eq_true_eq] using h

/-- Slot C has been switched on with the switch, and slot A has been switched off at the device. -/
theorem concert_2 : Along (fun s => Loaded 2 s ∧ Fits s) (start 0 []) concert ∧ Connected (run (start 0 []) concert) ∧
    (run (start 0 []) concert).toApp = [] ∧ (run (start 0 []) concert).toDev = [] ∧ (run (start 0 []) concert).app.ov.on = false ∧
    device (run (start 0 []) concert) 52 3 = 1 ∧ device (start 0 []) 52 3 = 0 :=
  ⟨alongB_spec (loaded 2) _ _ (by decide +kernel), by unfold Connected; decide +kernel, by decide +kernel, by decide +kernel,
    by decide +kernel, by decide +kernel, by decide +kernel⟩

/-- The switch is pressed before the connection is made. -/
def early : List Ev := press ++ [.devReceive 0 [], .beacon 1 60, .devReceive 0 []]

theorem early_2 : Along (fun s => Loaded 2 s ∧ Fits s) (start 0 []) (early ++ List.replicate 19 .appReceive) ∧
    Connected (run (start 0 []) (early ++ List.replicate 19 .appReceive)) ∧
    (run (start 0 []) (early ++ List.replicate 19 .appReceive)).toApp = [] ∧
    (run (start 0 []) (early ++ List.replicate 19 .appReceive)).toDev = [] ∧
    (run (start 0 []) (early ++ List.replicate 19 .appReceive)).app.ov.on = false ∧
    device (run (start 0 []) (early ++ List.replicate 19 .appReceive)) 52 3 = 1 :=
  ⟨alongB_spec (loaded 2) _ _ (by decide +kernel), by unfold Connected; decide +kernel, by decide +kernel, by decide +kernel,
    by decide +kernel, by decide +kernel⟩

end C136

open C136

example : (run (start 0 []) concert).app.acts.lit 2 = some true := by
  obtain ⟨h1, h2, h3, h4, h5, h6, -⟩ := concert_2
  have := C136_led_partial (k := 2) (by omega) 0 [] concert h1 h2 (by simp [Reported, h3]) (by simp [Delivered, h4]) (by simp [Reported, h3]) h5
  rw [h6] at this
  exact this

example : (run (start 0 []) (early ++ List.replicate 19 .appReceive)).app.acts.lit 2 = some true := by
  obtain ⟨h1, h2, h3, h4, h5, h6⟩ := early_2
  have := C136_led_partial (k := 2) (by omega) 0 [] _ h1 h2 (by rw [Reported, h3]; simp) (by rw [Delivered, h4]; simp) (by rw [Reported, h3]; simp) h5
  rw [h6] at this
  exact this

/-- The tuner is switched on and off at the device; both is seen by PySwitch. -/
example : Along Fits (start 0 []) (concert.take (concert.length - 2)) ∧
    Connected (run (start 0 []) (concert.take (concert.length - 2))) ∧
    (run (start 0 []) (concert.take (concert.length - 2))).toApp = [] ∧ (run (start 0 []) (concert.take (concert.length - 2))).toDev = [] ∧
    device (run (start 0 []) (concert.take (concert.length - 2))) 127 126 = 1 ∧
    (run (start 0 []) (concert.take (concert.length - 2))).app.ov.on = true :=
  ⟨alongB_spec (CB := fun s => decide (device s 127 126 < 16384)) (fun s h => by simpa [Fits] using h) _ _ (by decide +kernel),
    by unfold Connected; decide +kernel, by decide +kernel, by decide +kernel, by decide +kernel, by decide +kernel⟩

/-! ### What is missing -/

/-- C136 needs the report of the tuner mode: slot C is switched on before PySwitch is connected, and the LED is dark although the effect is
on and its state has been reported. -/
theorem C136_early_witness : ∃ es, Along (fun s => Loaded 2 s ∧ Fits s) (start 0 []) es ∧ Connected (run (start 0 []) es) ∧
    Reported 52 3 (run (start 0 []) es) ∧ Delivered 19 (run (start 0 []) es) ∧ (run (start 0 []) es).app.ov.on = false ∧
    device (run (start 0 []) es) 52 3 = 1 ∧ (run (start 0 []) es).app.acts.lit 2 = some false := by
  refine ⟨early ++ List.replicate 15 .appReceive, alongB_spec (loaded 2) _ _ (by decide +kernel),
    by unfold Connected; decide +kernel, ?_, ?_, by decide +kernel, by decide +kernel, by decide +kernel⟩
  · have e : (run (start 0 []) (early ++ List.replicate 15 .appReceive)).toApp =
        [ans 124 0 0, ans 127 126 0, ans 125 84 0, ans 124 15 8191] := by decide +kernel
    rw [Reported, e]
    intro b hb ha
    simp only [List.mem_cons, List.not_mem_nil, or_false] at hb
    rcases hb with rfl | rfl | rfl | rfl
    all_goals
      have := answering_sysex (by simp [ans]) (by simp [ans]) ha
      simp [ans] at this
  · have e : (run (start 0 []) (early ++ List.replicate 15 .appReceive)).toDev = [] := by decide +kernel
    rw [Delivered, e]; simp

/-- C136 is not true if the slot is emptied and loaded again: slot A is on, and the LED stays dark. -/
theorem C136_emptied_witness : ∃ es, Along Fits (start 0 []) es ∧ Connected (run (start 0 []) es) ∧
    (run (start 0 []) es).toApp = [] ∧ (run (start 0 []) es).toDev = [] ∧ (run (start 0 []) es).app.ov.on = false ∧
    device (run (start 0 []) es) 50 0 = 8 ∧ device (run (start 0 []) es) 50 3 = 1 ∧ (run (start 0 []) es).app.acts.lit 0 = some false :=
  ⟨connect ++ [.ui [] (.value 50 0 (.num 0)), .appReceive, .ui [] (.value 50 0 (.num 8)), .appReceive],
    alongB_spec (CB := fun s => decide (device s 127 126 < 16384)) (fun s h => by simpa [Fits] using h) _ _ (by decide +kernel),
    by unfold Connected; decide +kernel, by decide +kernel, by decide +kernel, by decide +kernel, by decide +kernel, by decide +kernel, by decide +kernel⟩

end PySwitch.Props
