import Verif.Spec.Rigs
/-
Helper lemmas for selecting rigs and banks.
-/
namespace PySwitch.Rigs

theorem tdiv5 {v : Int} (h : 0 ≤ v) : Int.tdiv v 5 = v / 5 := Int.tdiv_eq_ediv_of_nonneg h

theorem next_eq {c : RigChange} {v : Int} (hv : Valid v) : c.nextRig (v % 5) v = rigAfter c.up c.keepBank v := by
  obtain ⟨h1, h2⟩ := hv
  obtain ⟨up, keep⟩ := c
  unfold RigChange.nextRig rigAfter slotOf
  cases up <;> cases keep <;> simp <;> omega

/-- The device receives a rig select message. -/
theorem receive_select {s : Int} (hs : 0 ≤ s ∧ s ≤ 4) (d : Device) :
    d.receive (rigSelect s 1) = { current := mkRig (d.preselected.getD (bankOf d.current)) s, preselected := none } := by
  unfold Device.receive rigSelect
  rw [if_neg (by simp; omega), if_pos (by simp; omega)]
  simp only [mkRig, bankOf]
  congr 1
  omega

theorem receive_bank (b : Int) (d : Device) : d.receive (bankSelect b) = { d with preselected := some b } := by
  simp [Device.receive, bankSelect]

theorem receive_release {s : Int} (hs : 0 ≤ s) (d : Device) : d.receive (rigSelect s 0) = d := by
  unfold Device.receive rigSelect
  rw [if_neg (by simp; omega), if_neg (by simp)]

theorem loopUp_eq {n : Nat} (hn : 0 < n) (v : Int) : loopUp n v = if v < 0 then v % n else v := by
  induction v using loopUp.induct (n := n) with
  | case1 v h ih =>
    unfold loopUp
    rw [dif_pos h, ih, if_pos h.1]
    split
    · simp
    · rename_i h2
      have : (v + n) % n = v + n := Int.emod_eq_of_lt (by omega) (by omega)
      rw [← this]; simp
  | case2 v h =>
    unfold loopUp
    rw [dif_neg h, if_neg (by omega)]

theorem loopDown_eq {n : Nat} (hn : 0 < n) (v : Int) (hv : 0 ≤ v) : loopDown n v = v % n := by
  induction v using loopDown.induct (n := n) with
  | case1 v h ih =>
    unfold loopDown
    rw [dif_pos h, ih (by omega)]
    exact Int.sub_emod_right v n
  | case2 v h =>
    unfold loopDown
    rw [dif_neg h]
    exact (Int.emod_eq_of_lt hv (by omega)).symm

theorem loops_eq {n : Nat} (hn : 0 < n) (v : Int) : loopDown n (loopUp n v) = v % n := by
  rw [loopUp_eq hn]
  split
  · have := Int.emod_nonneg v (b := (n : Int)) (by omega)
    rw [loopDown_eq hn _ this]
    exact Int.emod_emod_of_dvd v (Int.dvd_refl _)
  · exact loopDown_eq hn v (by omega)

theorem nextBank_eq {c : BankChange} (hc : 0 < c.numBanks) (sh : Shared) {v : Int} (hv : 0 ≤ v) :
    c.nextBank sh v = (sh.preselectedBank.getD (bankOf v) + c.offset) % c.numBanks := by
  unfold BankChange.nextBank
  have hn : (c.numBanks.toNat : Int) = c.numBanks := by omega
  simp only
  rw [loops_eq (by omega), hn, tdiv5 hv]
  cases sh.preselectedBank <;> rfl

end PySwitch.Rigs
