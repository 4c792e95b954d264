import Verif.Props.Rigs
import Verif.Props.RigDisplay
import Verif.Props.Label
import Verif.Props.Preview
import Verif.Props.Effects
import Verif.Props.Tuner
/-!
Further theorems for C45, C46, C48, C57, C68, C75, C85 and C86, found necessary by wrong programs which the others did not notice.
-/
namespace PySwitch.Props
open PySwitch

section Rigs
open PySwitch.Rigs PySwitch.Spec

/-- C45. Without a limit, bank up/down goes through all the 125 banks of the device: after `k + 1` presses, the preselected bank is the first one plus `k + 1` times the offset, modulo 125. -/
theorem C45_all_banks (c : BankChange) (hc : c.preselect = true) (hm : c.maxBank = none) (st : State) (sh : Shared) (d : Device) (v : Int) (hv : 0 ≤ v) (hst : st.value = some v) (k : Nat) :
    let b := (sh.preselectedBank.getD (bankOf v) + (k + 1) * c.offset) % 125
    0 ≤ b ∧ b ≤ 124 ∧ (pressBankChange c (k + 1) (st, sh, d)).2.2 = { d with preselected := some b } := by
  have hn : c.numBanks = 125 := by simp [BankChange.numBanks, hm]
  obtain ⟨h1, h2, _, h4⟩ := C45_preselect c hc (by omega) st sh d v hv hst k
  rw [hn] at h1 h2 h4
  exact ⟨h1, by omega, h4⟩

example : ∃ c : BankChange, c.preselect = true ∧ c.maxBank = none := ⟨{ offset := 1, preselect := true }, rfl, rfl⟩

/-- The current rig is the one of the switch: its slot, and its bank if it has one. -/
def C46.Here (c : RigSelect) (r v : Int) : Prop := slotOf v + 1 = r ∧ ∀ b, c.bank = some b → bankOf v + 1 = b

theorem C46.isCurrent_iff (c : RigSelect) (r v : Int) (hv : 0 ≤ v) (hr : c.rig = some r) (hb : ∀ b, c.bank = some b → 1 ≤ b) :
    c.isCurrent v = true ↔ C46.Here c r v := by
  have ht : Int.tdiv v 5 = v / 5 := Int.tdiv_eq_ediv_of_nonneg hv
  unfold RigSelect.isCurrent C46.Here slotOf bankOf
  rw [hr, ht]
  cases hc : c.bank with
  | none => simp [eq_comm]
  | some b =>
    have := hb b hc
    simp only [decide_eq_true_eq, Option.some.injEq, reduceCtorEq, false_or]
    constructor
    · rintro ⟨h1, h2⟩; exact ⟨h1.symm, fun b' hb' => by omega⟩
    · rintro ⟨h1, h2⟩; exact ⟨h1.symm, .inr (h2 b rfl).symm⟩

/-- C46. A rig select switch which also controls the morph state (and has no off rig): if its rig is the current one, pressing it turns the morph state on, or off again if it is not momentary and was on; and if its rig is
another one, also if only the bank is another one, the morph state is off afterwards. -/
theorem C46_morph (c : RigSelect) (hm : c.rigBtnMorph = true) (st : SelState) (h1 : st.rigOff = none) (h2 : st.bankOff = none) (sh : Shared) (hp : sh.preselectedBank = none)
    (v r : Int) (hv : 0 ≤ v) (hst : st.value = some v) (hr : c.rig = some r) (hb : ∀ b, c.bank = some b → 1 ≤ b) :
    (C46.Here c r v → (c.push st sh).2.1.morphOverride = some (if c.momentaryMorph = false ∧ 0 < sh.morphOverride.getD 0 then 0 else 16383)) ∧
    (¬ C46.Here c r v → (c.push st sh).2.1.morphOverride = some 0) := by
  have hi := C46.isCurrent_iff c r v hv hr hb
  have hpush : (c.push st sh).2.1.morphOverride = some (c.pushMorph st sh.morphOverride) := by
    unfold RigSelect.push
    simp only [hp]
  rw [hpush]
  unfold RigSelect.pushMorph
  rw [hst]
  simp only [hm, h1, h2, and_self, if_true]
  constructor
  · intro h
    rw [if_pos (hi.mpr h)]
    cases c.momentaryMorph <;> simp
  · intro h
    rw [if_neg (fun hc => h (hi.mp hc))]

/-- C46. Releasing it turns the morph state off if it is momentary and its rig is the current one, and keeps it otherwise. -/
theorem C46_morph_release (c : RigSelect) (hm : c.rigBtnMorph = true) (st : SelState) (h1 : st.rigOff = none) (h2 : st.bankOff = none) (sh : Shared)
    (v r : Int) (hv : 0 ≤ v) (hst : st.value = some v) (hr : c.rig = some r) (hb : ∀ b, c.bank = some b → 1 ≤ b) :
    (C46.Here c r v → c.momentaryMorph = true → (c.release st sh).2.1.morphOverride = some 0) ∧
    (¬ C46.Here c r v ∨ c.momentaryMorph = false → (c.release st sh).2.1.morphOverride = sh.morphOverride) := by
  have hi := C46.isCurrent_iff c r v hv hr hb
  unfold RigSelect.release
  rw [hst]
  simp only [hm, h1, h2, true_and]
  constructor
  · intro h hmm
    rw [if_pos ⟨hi.mpr h, hmm⟩]
    cases st.sent <;> rfl
  · intro h
    rw [if_neg]
    · cases st.sent <;> rfl
    · rintro ⟨h3, h4⟩
      rcases h with h | h
      · exact h (hi.mp h3)
      · rw [h] at h4; cases h4

/-- Slot 2 of bank 3, in this bank, and in another one. -/
example : C46.Here { rig := some 2, bank := some 3 } 2 11 ∧ ¬ C46.Here { rig := some 2, bank := some 3 } 2 6 := by
  constructor
  · exact ⟨by decide, fun b hb => by cases hb; decide⟩
  · rintro ⟨_, h⟩; exact absurd (h 3 rfl) (by decide)

end Rigs

section RigDisplay
open PySwitch.RigDisplay PySwitch.Rigs PySwitch.Spec

/-- C85. The colors of the banks are blue, yellow, red, green and purple, again and again. -/
theorem C85_bank_colors (k : Int) :
    bankColor (5 * k) = ⟨0, 0, 255⟩ ∧ bankColor (5 * k + 1) = ⟨255, 255, 0⟩ ∧ bankColor (5 * k + 2) = ⟨255, 0, 0⟩ ∧
    bankColor (5 * k + 3) = ⟨100, 255, 100⟩ ∧ bankColor (5 * k + 4) = ⟨180, 0, 120⟩ := by
  have h0 : 5 * k % 5 = 0 := by omega
  have h1 : (5 * k + 1) % 5 = 1 := by omega
  have h2 : (5 * k + 2) % 5 = 2 := by omega
  have h3 : (5 * k + 3) % 5 = 3 := by omega
  have h4 : (5 * k + 4) % 5 = 4 := by omega
  unfold bankColor
  rw [h0, h1, h2, h3, h4]
  exact ⟨rfl, rfl, rfl, rfl, rfl⟩

/-- C86. The bank up/down switch which has preselected the bank blinks itself: each time the period is exceeded, its LEDs change between bright and dark. -/
theorem C86_bank_change_blinks (as : List Act) (s : Sys) (n : Nat) (c : BankChange) (k : Look) (x : ActState) (ha : as[n]? = some (.bankChange c k)) (hx : s.acts[n]? = some x)
    (hen : x.enabled = true) (hb : Blinks (.bankChange c k) n s.env) (v : Int) (hv : x.sel.value = some v) :
    ∃ y, (step as s (.tick n true)).1.acts[n]? = some y ∧ y.led.map (·.bright) = some (s.env.blink.getD false) ∧
      (step as s (.tick n true)).1.env.blink = some (!s.env.blink.getD false) := by
  obtain ⟨b1, b2, b3⟩ := hb
  have ht : tick as s n true = ⟨{ s.env with blink := some (!s.env.blink.getD false) },
      s.acts.set n ((Act.bankChange c k).draw n { s.env with blink := some (!s.env.blink.getD false) } x)⟩ := by
    unfold tick
    rw [ha, hx]
    simp only
    rw [if_pos ⟨b1, b2, b3, trivial⟩]
  simp only [step, ht]
  refine ⟨_, by rw [List.getElem?_set, if_pos rfl, if_pos (List.getElem?_eq_some_iff.1 hx).1], ?_, trivial⟩
  unfold Act.draw
  rw [show (x.show (bankChangeLabel c k x.sel s.env.shared) (bankChangeLed c k n x.sel { s.env with blink := some (!s.env.blink.getD false) })).led = _ from C83.show_led _ _ _ hen]
  unfold bankChangeLed
  rw [hv]
  simp only [Option.map_some]
  rw [if_pos ⟨b1, b2, b3⟩]
  simp

example : ∃ s, Sys.init [.bankChange { offset := 1, preselect := true } {}] = some s ∧
    let as : List Act := [.bankChange { offset := 1, preselect := true } {}]
    brightOf (loopRun as s 1 [.press 0, .tick 0 true]).1 = [some false] ∧ brightOf (loopRun as s 1 [.press 0, .tick 0 true, .tick 0 true]).1 = [some true] :=
  ⟨_, rfl, by decide +kernel⟩

/-- C86. There is a blink state, dark at first, exactly if one of the actions can preselect banks. -/
theorem C86_initial (as : List Act) (s : Sys) (h : Sys.init as = some s) :
    (s.env.blink = some false ↔ ∃ a ∈ as, (∃ c k, a = .bankSelect c k ∧ c.preselect = true) ∨ ∃ c k, a = .bankChange c k ∧ c.preselect = true) ∧
    (s.env.blink = some false ∨ s.env.blink = none) := by
  have he : s.env.blink = if as.any Act.preselect then some false else none := by
    obtain ⟨ss, _, rfl⟩ := Option.map_eq_some_iff.mp h
    rfl
  rw [he]
  have hp : ∀ a : Act, a.preselect = true ↔ (∃ c k, a = .bankSelect c k ∧ c.preselect = true) ∨ ∃ c k, a = .bankChange c k ∧ c.preselect = true := by
    intro a
    cases a <;> simp [Act.preselect]
  constructor
  · constructor
    · intro h
      split at h
      · rename_i ha
        obtain ⟨a, ha, hpa⟩ := List.any_eq_true.mp ha
        exact ⟨a, ha, (hp a).mp hpa⟩
      · cases h
    · rintro ⟨a, ha, hpa⟩
      rw [if_pos (List.any_eq_true.mpr ⟨a, ha, (hp a).mpr hpa⟩)]
  · split
    · exact .inl rfl
    · exact .inr rfl

end RigDisplay

section Label
open PySwitch.Label

/-- C75. If a width for the texts is set, the text drawn is the one asked for last, wrapped. -/
theorem C75_wrapped (wrap : String → String) (text : String) (textColor backColor : Option Color) (before after : List LabelEvent) (low : Bool)
    (h : (wishes text textColor backColor (before ++ [.init low] ++ after)).text ≠ "") :
    ((LabelState.create text textColor backColor).run (some wrap) (before ++ [.init low] ++ after)).drawn.map (·.text) =
      some (wrap (wishes text textColor backColor (before ++ [.init low] ++ after)).text) := by
  rw [C75_shows]
  simp only [Option.map_some, Wish.drawn, wrapText]
  rw [if_neg h]

example : (wishes "a" none none ([] ++ [.init false] ++ [.text "b c" false])).text ≠ "" := by decide +kernel

/-- C75. Green is the brightest of the basic colors: on backgrounds with much green the automatic text color is black, and on those without any green it is white, whatever the rest is. -/
theorem C75_green (back : Color) (hr : 0 ≤ back.r ∧ back.r ≤ 255) (hb : 0 ≤ back.b ∧ back.b ≤ 255) :
    (196 ≤ back.g → contrastColor (some back) = black) ∧ (back.g = 0 → contrastColor (some back) = white) := by
  have r1 : ((0 : Int) : Rat) ≤ back.r := Rat.intCast_le_intCast.mpr hr.1
  have r2 : (back.r : Rat) ≤ ((255 : Int) : Rat) := Rat.intCast_le_intCast.mpr hr.2
  have b1 : ((0 : Int) : Rat) ≤ back.b := Rat.intCast_le_intCast.mpr hb.1
  have b2 : (back.b : Rat) ≤ ((255 : Int) : Rat) := Rat.intCast_le_intCast.mpr hb.2
  have e0 : ((0 : Int) : Rat) = 0 := rfl
  have e1 : ((255 : Int) : Rat) = 255 := rfl
  have e2 : ((196 : Int) : Rat) = 196 := rfl
  rw [e0] at r1 b1
  rw [e1] at r2 b2
  simp only [contrastColor]
  constructor
  · intro hg
    have g : ((196 : Int) : Rat) ≤ back.g := Rat.intCast_le_intCast.mpr hg
    rw [e2] at g
    rw [if_neg]
    unfold luminance
    grind
  · intro hg
    have g : (back.g : Rat) = 0 := by rw [hg]; rfl
    rw [if_pos]
    unfold luminance
    grind

example : contrastColor (some ⟨0, 255, 0⟩) = black ∧ contrastColor (some ⟨255, 0, 255⟩) = white := by decide +kernel

end Label

section Preview

/-- C68. The period of the blinking is the one of the last preview, whatever was shown before, and there is none if the preview does not blink. -/
theorem C68_interval (c : Preview.Config) (st : Preview.State) (now : Int) (r : Preview.Request) :
    (Preview.preview c st now r).1.blinkPeriod.map (·.interval) = r.blink := by
  unfold Preview.preview
  simp only [Preview.newBlinkPeriod]
  cases r.blink with
  | none => rfl
  | some t => simp only; split <;> rfl

end Preview

section Effects
open PySwitch.Effects

/-- C48. Every documented effect type has a name of its own, except type 91. Missing: type 91, see `C48_flanger_witness`. -/
theorem C48_named_partial (t : Int) (ht : t ∈ documented) (h91 : t ≠ 91) : ∃ n, extendedNames.lookup t = some n := by
  have key : ∀ t ∈ documented, t = 91 ∨ (extendedNames.lookup t).isSome = true := by decide +kernel
  rcases key t ht with h | h
  · exact absurd h h91
  · exact Option.isSome_iff_exists.mp h

example : (130 : Int) ∈ documented ∧ extendedNames.lookup (130 : Int) = some "ChromPtch" := by decide +kernel

/-- C48 fails for type 91 (flanger, one way): its name is given to type 90, which does not exist, so the label for type 91 is that of a phaser. -/
theorem C48_flanger_witness : (91 : Int) ∈ documented ∧ (90 : Int) ∉ documented ∧ extendedNames.lookup (90 : Int) = some "Fl 1way" ∧
    categoryText { extended := true } (getCategory 91) (some 91) = some "Phaser" := by
  decide +kernel

end Effects

section Strobe
open PySwitch.Tuner

/-- The clock reading of an event, if it has one. -/
def C57.time : StrobeEvent → Option Int
  | .tuner _ t => some t
  | .deviance _ t => some t
  | .others _ => none

theorem C57.step_interval (c : StrobeConfig) (st : StrobeState) (e : StrobeEvent) :
    (c.step st e).period.interval = st.period.interval := by
  cases e <;> simp only [StrobeConfig.step, StrobeConfig.update, StrobeConfig.draw, PeriodCounter.exceeded, PeriodCounter.reset] <;>
    (repeat' split) <;> simp_all <;> (repeat' split) <;> simp_all

theorem C57.step_last (c : StrobeConfig) (st : StrobeState) (e : StrobeEvent) (t : Int) (h : t ≤ st.period.lastReset)
    (he : ∀ u, C57.time e = some u → t ≤ u) : t ≤ (c.step st e).period.lastReset := by
  cases e <;> simp only [C57.time, Option.some.injEq, forall_eq'] at he <;>
    simp only [StrobeConfig.step, StrobeConfig.update, StrobeConfig.draw, PeriodCounter.exceeded, PeriodCounter.reset] <;>
    (repeat' split) <;> simp_all <;> (repeat' split) <;> simp_all

theorem C57.run_interval (c : StrobeConfig) (st : StrobeState) (es : List StrobeEvent) :
    (c.run st es).period.interval = st.period.interval := by
  induction es generalizing st with
  | nil => rfl
  | cons e es ih => exact (ih (c.step st e)).trans (C57.step_interval c st e)

theorem C57.run_last (c : StrobeConfig) (st : StrobeState) (es : List StrobeEvent) (t : Int) (h : t ≤ st.period.lastReset)
    (he : ∀ e ∈ es, ∀ u, C57.time e = some u → t ≤ u) : t ≤ (c.run st es).period.lastReset := by
  induction es generalizing st with
  | nil => exact h
  | cons e es ih =>
    exact ih (c.step st e) (C57.step_last c st e t h (he e (by simp))) (fun x hx => he x (by simp [hx]))

theorem C57.drawn (c : StrobeConfig) (st : StrobeState) (v t : Int) (h : (c.step st (.deviance v t)).leds ≠ st.leds) :
    st.period.lastReset + st.period.interval < t ∧ (c.step st (.deviance v t)).period.lastReset = t := by
  revert h
  simp only [StrobeConfig.step, StrobeConfig.update, StrobeConfig.draw, PeriodCounter.exceeded]
  by_cases h1 : c.count ≤ 1
  · simp [h1]
  · by_cases h2 : st.enabled
    · by_cases h3 : st.period.lastReset + st.period.interval < t
      · simp [h1, h2, h3]
      · simp [h1, h2, h3]
    · simp [h1, h2]

/-- C57. The strobe does not set LEDs more often than allowed: if it sets LEDs at `t1` and, after whatever happened in between, again at `t2`, then more than `1000 / fps` milliseconds per switch lie between. -/
theorem C57_frame_rate (c : StrobeConfig) (fps : Rat) (hf : 0 < fps) (hi : c.interval = frameInterval fps c.count)
    (pre mid : List StrobeEvent) (v1 v2 t1 t2 : Int) (hm : ∀ e ∈ mid, ∀ u, C57.time e = some u → t1 ≤ u)
    (h1 : (c.run c.initial (pre ++ [.deviance v1 t1])).leds ≠ (c.run c.initial pre).leds)
    (h2 : (c.run c.initial (pre ++ [.deviance v1 t1] ++ mid ++ [.deviance v2 t2])).leds ≠
      (c.run c.initial (pre ++ [.deviance v1 t1] ++ mid)).leds) :
    1000 / fps * (c.count : Rat) < ((t2 - t1 : Int) : Rat) := by
  simp only [StrobeConfig.run, List.foldl_append, List.foldl_cons, List.foldl_nil] at h1 h2
  have d1 := C57.drawn c _ v1 t1 h1
  have d2 := C57.drawn c _ v2 t2 h2
  have hl := C57.run_last c (c.step (c.run c.initial pre) (.deviance v1 t1)) mid t1 (Int.le_of_eq d1.2.symm) hm
  have hiv : (c.run (c.step (c.run c.initial pre) (.deviance v1 t1)) mid).period.interval = c.interval := by
    rw [C57.run_interval, C57.step_interval, C57.run_interval]; rfl
  have d3 := d2.1
  change (c.run (c.step (c.run c.initial pre) (.deviance v1 t1)) mid).period.lastReset +
    (c.run (c.step (c.run c.initial pre) (.deviance v1 t1)) mid).period.interval < t2 at d3
  rw [hiv, hi] at d3
  have hx : (0 : Rat) ≤ 1000 / fps * (c.count : Rat) := by
    apply Rat.mul_nonneg
    · rw [Rat.div_def]; exact Rat.mul_nonneg (by decide) (Rat.le_of_lt (Rat.inv_pos.2 hf))
    · exact_mod_cast Int.natCast_nonneg c.count
  have hfl : frameInterval fps c.count < t2 - t1 := by omega
  unfold frameInterval at hfl
  rw [pyInt_of_nonneg hx] at hfl
  exact Rat.floor_lt_iff.mp hfl

example : let c : StrobeConfig := { count := 4, interval := frameInterval 120 4 }
    let on : StrobeEvent := .tuner true 0
    c.interval = 33 ∧ (c.run c.initial ([on] ++ [.deviance 9000 40])).leds 0 ≠ (c.run c.initial [on]).leds 0 ∧
      (c.run c.initial ([on] ++ [.deviance 9000 40] ++ [.deviance 12000 60] ++ [.deviance 12000 80])).leds 0 ≠
        (c.run c.initial ([on] ++ [.deviance 9000 40] ++ [.deviance 12000 60])).leds 0 := by decide +kernel

end Strobe

end PySwitch.Props
