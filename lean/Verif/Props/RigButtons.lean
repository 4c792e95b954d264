import Verif.Lemmas.RigButtons
/-
C161, C162: any panel of rig and bank buttons, with the virtual Kemper.
-/
namespace PySwitch.Props
open PySwitch.RigButtons PySwitch.RigButtons.Spec PySwitch.Kemper.Setup.Spec

namespace C161

theorem inv_start {now : Int} {date : List Nat} {before : List PySwitch.Kemper.Setup.Ev} (hb : Ready before) {cs : List Config}
    {bs : List Button} (hc : cs.mapM Config.create = some bs) :
    let dev := ((PySwitch.Kemper.Setup.initial now date).run before).1
    PySwitch.RigButtons.Inv cs (start bs dev) { rig := dev.rigId, seen := [(dev.rigId : Int)] } (before.foldl Player.step {}) := by
  intro dev
  obtain ⟨h1, h2, h3, h4⟩ := hb
  have v := PySwitch.Kemper.Setup.view_run (PySwitch.Kemper.Setup.view_initial now date) before h1
  have r := v.rig.id v.shape
  refine ⟨v, ?_, h2, h4, created_btn cs bs hc _ (by omega), ⟨_, rfl⟩, ?_, rfl, ?_, ?_, fun _ => h3⟩
  · show _ = (dev.rigId : Int)
    rw [show dev.rigId = _ from r]
  · intro w hw
    simp only [List.mem_singleton] at hw
    subst hw
    rw [show dev.rigId = _ from r]
    unfold Rigs.Valid
    omega
  · intro b hb; simp at hb
  · intro _; rw [h3]; rfl

theorem known_btn (t : Spec.State) (h : ∃ l, t.seen = t.rig :: l) (c : Config) : known (btn t.seen c) = some t.rig := by
  obtain ⟨l, h⟩ := h
  rw [h]
  cases c <;> rfl

theorem allowed {cs : List Config} (hn : ∀ c ∈ cs, Preselects c = false) (es : List Ev) (hd : ∀ e ∈ es, Exists e) (t : Spec.State)
    (ht : t.preselected = false) : Allowed cs t es := by
  induction es generalizing t with
  | nil => trivial
  | cons e es ih =>
    have ih := fun t ht => ih (fun e h => hd e (by simp [h])) t ht
    cases e with
    | press i t0 t1 date =>
      simp only [Allowed]
      cases hi : cs[i]? with
      | none => exact ih t ht
      | some c =>
        have hp := hn c (List.mem_of_getElem? hi)
        refine ⟨by simp [ht], ih _ ?_⟩
        cases c with
        | rigChange c => rfl
        | bankChange c => simp only [Preselects] at hp; simp [Spec.State.press, hp, Spec.State.goto]
        | bankSelect c => simp only [Preselects] at hp; simp [Spec.State.press, hp, Spec.State.goto]
        | rigSelect c => simp only [Spec.State.press]; cases t.pending <;> rfl
    | update now => exact ih t ht
    | device n date => exact ⟨hd _ (List.mem_cons_self ..), ht, ih _ ht⟩

end C161

/-- C162. Any panel of rig and bank buttons, with the virtual Kemper, after every sequence of presses, updates and selections at the device:
the active rig is the one meant by the buttons, it exists, and all buttons know it. After a preselection, the next rig must not be selected
with rig up/down, plain bank up/down or at the device (see the witnesses below), which is missing. -/
theorem C162_panel_partial (now : Int) (date : List Nat) (before : List PySwitch.Kemper.Setup.Ev) (hb : Ready before) (cs : List Config)
    (bs : List Button) (hc : cs.mapM Config.create = some bs) (hv : ∀ c ∈ cs, Spec.Valid c) (es : List Ev) :
    let dev := ((PySwitch.Kemper.Setup.initial now date).run before).1
    let s := (start bs dev).run es
    let t₀ : Spec.State := { rig := dev.rigId, seen := [(dev.rigId : Int)] }
    let t := t₀.presses cs es
    Allowed cs t₀ es → (s.dev.rigId : Int) = t.rig ∧ (0 ≤ t.rig ∧ t.rig < 625) ∧ s.buttons.length = cs.length ∧
      ∀ b ∈ s.buttons, known b = some t.rig := by
  intro dev s t₀ t ha
  obtain ⟨p, h⟩ := (C161.inv_start (now := now) (date := date) hb hc).run hv es ha
  refine ⟨?_, h.valid, by rw [h.btns, List.length_map], ?_⟩
  · rw [← h.rig, h.view.rig.id h.view.shape]
  · intro b hb
    rw [h.btns] at hb
    obtain ⟨c, -, rfl⟩ := List.mem_map.1 hb
    exact C161.known_btn t h.head c

/-- C161. A panel of any rig up/down, bank up/down, bank select and rig select buttons without preselection, with the virtual Kemper, after
every sequence of presses, updates and selections at the device: the active rig is the one meant by the buttons, it exists, and all buttons
know it. -/
theorem C161_panel (now : Int) (date : List Nat) (before : List PySwitch.Kemper.Setup.Ev) (hb : Ready before) (cs : List Config)
    (bs : List Button) (hc : cs.mapM Config.create = some bs) (hv : ∀ c ∈ cs, Spec.Valid c) (hn : ∀ c ∈ cs, Preselects c = false)
    (es : List Ev) (hd : ∀ e ∈ es, Exists e) :
    let dev := ((PySwitch.Kemper.Setup.initial now date).run before).1
    let s := (start bs dev).run es
    let t := Spec.State.presses cs { rig := dev.rigId, seen := [(dev.rigId : Int)] } es
    (s.dev.rigId : Int) = t.rig ∧ (0 ≤ t.rig ∧ t.rig < 625) ∧ s.buttons.length = cs.length ∧ ∀ b ∈ s.buttons, known b = some t.rig := by
  intro dev s t
  exact C162_panel_partial now date before hb cs bs hc hv es (C161.allowed hn es hd _ rfl)

namespace C161

/-- Rig up, bank down, bank 4 (or 2), rig 3 (or the last other one), and rig 2 in bank 7 (or the last other bank). -/
def panel : List Config := [.rigChange ⟨true, false⟩, .bankChange { offset := -1, number := 49 }, .bankSelect { bank := 4, bankOff := some 2 },
  .rigSelect { rig := some 3, rigOffAuto := true }, .rigSelect { rig := some 2, bank := some 7, bankOffAuto := true }]

def press (i : Nat) : Ev := .press i 0 1 []

def panelBs : List Button := [.rigChange ⟨true, false⟩ {}, .bankChange { offset := -1, number := 49 } {},
  .bankSelect { bank := 4, bankOff := some 2 } {},
  .rigSelect { rig := some 3, rigOffAuto := true } { rigOff := some 1, bankOff := none },
  .rigSelect { rig := some 2, bank := some 7, bankOffAuto := true } { rigOff := none, bankOff := some 1 }]

/-- With preselection: bank up and bank 9, rig 3 (or 1), rig up and bank up without preselection. -/
def presel : List Config := [.bankChange { offset := 1, preselect := true }, .bankSelect { bank := 9, preselect := true },
  .rigSelect { rig := some 3, rigOff := some 1 }, .rigChange ⟨true, false⟩, .bankChange { offset := 1, number := 48 }]

def preselBs : List Button := [.bankChange { offset := 1, preselect := true } {}, .bankSelect { bank := 9, preselect := true } {},
  .rigSelect { rig := some 3, rigOff := some 1 } { rigOff := some 1, bankOff := none }, .rigChange ⟨true, false⟩ {},
  .bankChange { offset := 1, number := 48 } {}]

theorem valid_panel : ∀ c ∈ panel, Spec.Valid c := by
  intro c hc
  simp only [panel, List.mem_cons, List.not_mem_nil, or_false] at hc
  rcases hc with rfl | rfl | rfl | rfl | rfl <;> simp [Spec.Valid, Bank, Slot]

theorem valid_presel : ∀ c ∈ presel, Spec.Valid c := by
  intro c hc
  simp only [presel, List.mem_cons, List.not_mem_nil, or_false] at hc
  rcases hc with rfl | rfl | rfl | rfl | rfl <;> simp [Spec.Valid, Bank, Slot, Rigs.BankChange.numBanks]

end C161

/-- The hypotheses hold, also for an event before. -/
example : Ready [.receive 0 [] [176, 53, 1], .receive 1 [] [176, 53, 0]] := by
  refine ⟨?_, by decide, rfl, ?_⟩
  · intro e he
    simp only [List.mem_cons, List.not_mem_nil, or_false] at he
    rcases he with rfl | rfl <;> exact (C133.midi_cc _ _).2 (by omega)
  · intro s
    show (if s = 3 then 0 else if s = 3 then 1 else 0) = 0
    split <;> rfl

example : C161.panel.mapM Config.create = some C161.panelBs := by decide

/-- Down a bank from the first one (to the last), rig 3, up to rig 4, rig 3, rig 3 again (back to rig 4), bank 4, again (bank 2), rig 2 of bank 7,
again (back to bank 2), a rig chosen at the device, and rig 3. -/
example : ((List.range 9).map fun i =>
    (Spec.State.presses C161.panel { rig := 0, seen := [0] }
      (([1, 3, 0, 3, 3, 2, 2, 4, 4].take (i + 1)).map C161.press)).rig) = [620, 622, 623, 622, 623, 18, 8, 31, 6] := by
  decide

example : (Spec.State.presses C161.panel { rig := 0, seen := [0] }
    (([1, 3, 0, 3, 3, 2, 2, 4, 4].map C161.press) ++ [.device 333 [], C161.press 3])).rig = 332 := by decide

/-- With preselection: bank up twice and rig 3 select rig 3 of the third bank; bank 9 and rig 3 select it there, and rig 3 again selects rig 1. -/
example : C161.presel.mapM Config.create = some C161.preselBs := by decide

example : let es := [0, 0, 2, 1, 2].map C161.press
    Allowed C161.presel { rig := 0, seen := [0] } es ∧ (Spec.State.presses C161.presel { rig := 0, seen := [0] } es).rig = 42 := by
  refine ⟨?_, by decide⟩
  simp [Allowed, C161.press, C161.presel, Relative]

/-- C162 does not hold without the restriction. Bank 9 is preselected, and rig up is pressed in the first rig: the device goes to rig 2 of
bank 9, although rig up shall select rig 2 of the first bank. -/
theorem C162_rig_up_witness :
    let es := [1, 3].map C161.press
    ((start C161.preselBs (PySwitch.Kemper.Setup.initial 0 [])).run es).dev.rigId = 41 ∧
      (Spec.State.presses C161.presel { rig := 0, seen := [0] } es).rig = 1 := by
  decide +kernel

/-- Bank 9 is preselected, bank up selects the second bank, and after this rig 3 selects rig 3 of bank 9. -/
theorem C162_bank_up_witness :
    let es := [1, 4, 2].map C161.press
    ((start C161.preselBs (PySwitch.Kemper.Setup.initial 0 [])).run es).dev.rigId = 42 ∧
      (Spec.State.presses C161.presel { rig := 0, seen := [0] } es).rig = 7 := by
  decide +kernel

/-- Bank 9 is preselected while it is the current one, so no preselection is shown; another rig is chosen at the device, and after this rig 3
selects rig 3 of bank 9 and not of the bank which is shown. -/
theorem C162_device_witness :
    let es := [Ev.device 40 [], C161.press 1, Ev.device 100 []]
    let s := (start C161.preselBs (PySwitch.Kemper.Setup.initial 0 [])).run es
    s.shared.preselectedBank = none ∧ s.dev.rigId = 100 ∧ (s.step (C161.press 2)).dev.rigId = 42 ∧
      (Spec.State.presses C161.presel { rig := 0, seen := [0] } (es ++ [C161.press 2])).rig = 102 := by
  decide +kernel

end PySwitch.Props
