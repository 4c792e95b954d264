import Verif.Lemmas.RigHold
import Verif.Props.RigButtons

/-
C163: rig and bank buttons which are held while others are used.
-/
namespace PySwitch.Props
open PySwitch.RigButtons PySwitch.RigButtons.Spec PySwitch.Kemper.Setup.Spec

namespace C163

theorem hold_start {now : Int} {date : List Nat} {before : List PySwitch.Kemper.Setup.Ev} (hb : Ready before) {cs : List Config}
    {bs : List Button} (hc : cs.mapM Config.create = some bs) :
    let dev := ((PySwitch.Kemper.Setup.initial now date).run before).1
    HoldInv cs (start bs dev) { st := { rig := dev.rigId, seen := [(dev.rigId : Int)] } } (before.foldl Player.step {}) := by
  intro dev
  have h := C161.inv_start (now := now) (date := date) hb hc
  refine ⟨h.view, h.rig, h.lt, by rw [h.btns, List.length_map], ?_, h.head, h.seen, rfl, rfl, hb.2.2.1, by simp, fun k _ => hb.2.2.2 k, by simp,
    fun _ _ _ => rfl, fun _ _ => rfl⟩
  intro j c hj
  rw [h.btns, List.getElem?_map, hj]
  simp [setSent_none, dev]

theorem known_set (x : Option Int) (b : Button) : known (setSent x b) = known b := by cases b <;> rfl

end C163

/-- C163. A panel of any rig up/down, bank up/down, bank select and rig select buttons without preselection, with the virtual Kemper: also if
buttons are held while others are pushed and released, in any order, the active rig is always the one meant by the buttons in the order in which
they have been pushed, releasing them changes nothing, and all buttons know the rig. No button must be pushed while another one is held which has
selected the same slot (see the witness below), which is missing. -/
theorem C163_hold_partial (now : Int) (date : List Nat) (before : List PySwitch.Kemper.Setup.Ev) (hb : Ready before) (cs : List Config)
    (bs : List Button) (hc : cs.mapM Config.create = some bs) (hv : ∀ c ∈ cs, Spec.Valid c) (hn : ∀ c ∈ cs, Preselects c = false)
    (es : List HoldEv) :
    let dev := ((PySwitch.Kemper.Setup.initial now date).run before).1
    let s := (start bs dev).holdRun es
    let h₀ : Hold := { st := { rig := dev.rigId, seen := [(dev.rigId : Int)] } }
    let t := (h₀.run cs es).st
    HoldOk cs h₀ es → (s.dev.rigId : Int) = t.rig ∧ (0 ≤ t.rig ∧ t.rig < 625) ∧ s.buttons.length = cs.length ∧
      ∀ b ∈ s.buttons, known b = some t.rig := by
  intro dev s h₀ t ha
  obtain ⟨p, h⟩ := (C163.hold_start (now := now) (date := date) hb hc).run hv hn es ha
  refine ⟨?_, h.valid, h.len, ?_⟩
  · rw [← h.rig, h.view.rig.id h.view.shape]
  · intro b hb
    obtain ⟨j, hj⟩ := List.getElem?_of_mem hb
    have hl : j < cs.length := by
      rw [← h.len]
      exact (List.getElem?_eq_some_iff.1 hj).1
    have := h.btns j cs[j] (List.getElem?_eq_getElem hl)
    rw [this] at hj
    cases hj
    rw [C163.known_set]
    exact C161.known_btn t h.head _

/-- With all buttons up in between, holding is pressing: the meaning of the events is the one of C161. -/
theorem C163_press (cs : List Config) (h : Hold) (i : Nat) (t0 t1 : Int) (date : List Nat) :
    ((h.step cs (.push i t0 date)).step cs (.release i t1 date)).st = h.st.presses cs [.press i t0 t1 date] := by
  simp only [Hold.step, Spec.State.presses]
  cases cs[i]? <;> rfl

namespace C163

def push (i : Nat) : HoldEv := .push i 0 []
def release (i : Nat) : HoldEv := .release i 0 []

/-- Two buttons which select the same slot: rig 3, and rig 3 of bank 7. -/
def same : List Config := [.rigSelect { rig := some 3 }, .rigSelect { rig := some 3, bank := some 7 }]

def sameBs : List Button := [.rigSelect { rig := some 3 } { rigOff := none, bankOff := none },
  .rigSelect { rig := some 3, bank := some 7 } { rigOff := none, bankOff := none }]

end C163

/-- The hypotheses hold: rig 3 is held, while rig up is pushed and released, and bank down is pushed; then rig 3 and bank down are released. -/
example : let es := [C163.push 3, C163.push 0, C163.release 0, C163.push 1, C163.release 3, C163.release 1]
    HoldOk C161.panel { st := { rig := 0, seen := [0] } } es ∧
      (Hold.run C161.panel { st := { rig := 0, seen := [0] } } es).st.rig = 623 := by
  refine ⟨?_, by decide⟩
  refine ⟨fun c hc => ⟨rfl, fun j s h => ?_⟩, fun c hc => ⟨rfl, fun j s h => ?_⟩, fun c hc => ⟨rfl, fun j s h => ?_⟩, trivial⟩
  · simp at h
  · have hcs : c = .rigChange ⟨true, false⟩ := by
      have : some c = some (.rigChange ⟨true, false⟩) := hc.symm.trans rfl
      exact Option.some.inj this
    subst hcs
    by_cases hj : j = 3
    · subst hj
      have : (some (some 2) : Option (Option Int)) = some (some s) := (by decide : (some (some 2) : Option (Option Int)) = _).trans h
      cases this
      decide
    · exfalso
      simp [Hold.step, C161.panel, hj] at h
  · have hcs : c = .bankChange { offset := -1, number := 49 } := by
      have : some c = some (.bankChange { offset := -1, number := 49 }) := hc.symm.trans rfl
      exact Option.some.inj this
    subst hcs
    simp [Spec.State.slotFor]

/-- C163 does not hold without the restriction: while rig 3 is held, rig 3 of bank 7 is pushed, and the virtual device ignores it, because the
value of its button does not change. -/
theorem C163_same_slot_witness :
    let es := [C163.push 0, C163.push 1]
    C163.same.mapM Config.create = some C163.sameBs ∧
    ((start C163.sameBs (PySwitch.Kemper.Setup.initial 0 [])).holdRun es).dev.rigId = 2 ∧
      (Hold.run C163.same { st := { rig := 0, seen := [0] } } es).st.rig = 32 := by
  decide +kernel

end PySwitch.Props
