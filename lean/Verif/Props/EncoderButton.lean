import Verif.Spec.EncoderButton
/-
C95: encoder buttons.
-/
namespace PySwitch.Props
open PySwitch.EncoderButton

namespace C95

theorem those_from (p : Assignment → Bool) (a : Assignment) (as : List Assignment) :
    those p (a :: as) = (if p a then [0] else []) ++ (those p as).map (· + 1) := by
  unfold those
  rw [List.length_cons, List.range_succ_eq_map, List.filter_cons, List.filter_map]
  simp only [List.getElem?_cons_zero, Function.comp_def, List.getElem?_cons_succ]
  cases p a <;> rfl

theorem constructAll_encoders (as : List Assignment) (e : Nat) (bs : Nat → Button) (k : Nat) :
    (OnlyAccepts k as → (constructAll e bs as k).encoders = (bs k).encoders ++
        (those (fun a => decide (a.accept = some k)) as).map (· + e) ∧
      (constructAll e bs as k).cancelMode =
        if those (fun a => decide (a.accept = some k)) as = [] then (bs k).cancelMode else false) ∧
    (OnlyCancels k as → (constructAll e bs as k).encoders = (bs k).encoders ++
        (those (fun a => decide (a.cancel = some k)) as).map (· + e) ∧
      (constructAll e bs as k).cancelMode =
        if those (fun a => decide (a.cancel = some k)) as = [] then (bs k).cancelMode else true) := by
  induction as generalizing e bs with
  | nil => simp [those, constructAll]
  | cons a as ih =>
    have hm : (fun x : Nat => x + 1 + e) = (fun x => x + (e + 1)) := by funext x; omega
    obtain ⟨ih1, ih2⟩ := ih (e + 1) (construct bs e a)
    constructor
    · intro h
      have ih1 := ih1 (fun x hx => h x (by simp [hx]))
      have hc := h a (by simp)
      simp only [constructAll]
      rw [ih1.1, ih1.2, those_from]
      have hr : construct bs e a k = if a.accept = some k then (bs k).register e false else bs k := by
        unfold construct registerAt
        cases ha : a.accept <;> cases hb : a.cancel <;> simp_all <;> grind
      rw [hr]
      by_cases ha : a.accept = some k
      · simp [ha, Button.register, hm, Function.comp_def]
      · simp [ha, hm, Function.comp_def]
    · intro h
      have ih2 := ih2 (fun x hx => h x (by simp [hx]))
      have hc := h a (by simp)
      simp only [constructAll]
      rw [ih2.1, ih2.2, those_from]
      have hr : construct bs e a k = if a.cancel = some k then (bs k).register e true else bs k := by
        unfold construct registerAt
        cases ha : a.accept <;> cases hb : a.cancel <;> simp_all <;> grind
      rw [hr]
      by_cases ha : a.cancel = some k
      · simp [ha, Button.register, hm, Function.comp_def]
      · simp [ha, hm, Function.comp_def]

end C95

/-- C95, for buttons with one purpose. A button used for accepting only, pushed, accepts the values of exactly the
encoders it has been given to, each once. -/
theorem C95_accept_partial (as : List Assignment) (k : Nat) (h : OnlyAccepts k as) :
    (buttons as k).push = (those (fun a => decide (a.accept = some k)) as).map .accept := by
  have := (C95.constructAll_encoders as 0 (fun _ => {}) k).1 h
  unfold buttons Button.push
  rw [this.1, this.2]
  simp

/-- C95, for buttons with one purpose. A button used for cancelling only, pushed, cancels exactly the encoders it has
been given to, each once. -/
theorem C95_cancel_partial (as : List Assignment) (k : Nat) (h : OnlyCancels k as) :
    (buttons as k).push = (those (fun a => decide (a.cancel = some k)) as).map .cancel := by
  have := (C95.constructAll_encoders as 0 (fun _ => {}) k).2 h
  unfold buttons Button.push
  rw [this.1, this.2]
  by_cases he : those (fun a => decide (a.cancel = some k)) as = []
  · simp [he]
  · simp [he]

example : OnlyAccepts 0 [⟨some 0, some 1⟩, ⟨none, none⟩, ⟨some 0, none⟩] ∧
    OnlyCancels 1 [⟨some 0, some 1⟩, ⟨none, none⟩, ⟨some 0, none⟩] := by
  unfold OnlyAccepts OnlyCancels; decide
example : (buttons [⟨some 0, some 1⟩, ⟨none, none⟩, ⟨some 0, none⟩] 0).push = [.accept 0, .accept 2] ∧
    (buttons [⟨some 0, some 1⟩, ⟨none, none⟩, ⟨some 0, none⟩] 1).push = [.cancel 0] := by decide

/-- C95 fails for a button which accepts one encoder and cancels another one: all of its encoders get what the last
one constructed has asked for. Here, button 0 should accept encoder 0 and cancel encoder 1. -/
theorem C95_mixed : (buttons [⟨some 0, none⟩, ⟨some 1, some 0⟩] 0).push = [.cancel 0, .cancel 1] ∧
    (buttons [⟨some 1, some 0⟩, ⟨some 0, none⟩] 0).push = [.accept 0, .accept 1] := by decide

/-- C95: whatever the configuration is, a button never accepts some of its encoders and cancels others. -/
theorem C95_never_both (as : List Assignment) (k e e' : Nat) :
    ¬ (Call.accept e ∈ (buttons as k).push ∧ Call.cancel e' ∈ (buttons as k).push) := by
  unfold Button.push
  cases (buttons as k).cancelMode <;> simp

end PySwitch.Props
