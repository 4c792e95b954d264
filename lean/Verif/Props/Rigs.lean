import Verif.Lemmas.Rigs
/-
C43-C47, C70: selecting rigs and banks.
-/
namespace PySwitch.Props
open PySwitch.Rigs

/-! ### C43 and C44: rig up/down -/

/-- C43. The rig meant by rig up/down is valid. -/
theorem C43_valid (up keep : Bool) (id : Int) (h : Valid id) : Valid (rigAfter up keep id) := by
  unfold Valid at *
  unfold rigAfter slotOf
  cases up <;> cases keep <;> simp <;> omega

/-- C43, C44. Pushing rig up/down when the device is in a valid rig and no bank is preselected: the device goes to the
rig meant. If it is the current one (at the ends of the bank with `keep_bank`), nothing is sent; otherwise a bank
preselect is sent if and only if the bank changes, and then the slot is selected with value 1. -/
theorem C44_push_partial (c : RigChange) (st : State) (sh : Shared) (d : Device) (hd : Valid d.current)
    (hp : d.preselected = none) (hst : st.value = some d.current) :
    let target := rigAfter c.up c.keepBank d.current
    (c.push st sh).2.2 =
      (if target = d.current then []
       else if bankOf target = bankOf d.current then [⟨50 + slotOf target, 1⟩]
       else [⟨47, bankOf target⟩, ⟨50 + slotOf target, 1⟩]) ∧
    d.receiveAll (c.push st sh).2.2 = { current := target, preselected := none } := by
  intro target
  have hv : Valid target := C43_valid c.up c.keepBank d.current hd
  have hnext : c.nextRig (d.current % 5) d.current = target := next_eq hd
  unfold RigChange.push
  rw [hst]
  simp only
  rw [hnext, tdiv5 hd.1, tdiv5 hv.1]
  by_cases ht : target = d.current
  · rw [if_pos ht, if_pos ht]
    refine ⟨rfl, ?_⟩
    show d = _
    rw [ht, ← hp]
  · rw [if_neg ht, if_neg ht]
    obtain ⟨h1, h2⟩ := hv
    have hs : 0 ≤ target % 5 ∧ target % 5 ≤ 4 := by omega
    by_cases hb : target / 5 = d.current / 5
    · have hb' : bankOf target = bankOf d.current := hb
      rw [if_pos hb']
      simp only [hb, ne_eq, not_true_eq_false, if_false, List.nil_append]
      refine ⟨rfl, ?_⟩
      simp only [Device.receiveAll, List.foldl_cons, List.foldl_nil, receive_select hs, hp, Option.getD_none]
      congr 1
      unfold mkRig bankOf; omega
    · have hb' : ¬ bankOf target = bankOf d.current := hb
      rw [if_neg hb']
      simp only [ne_eq, hb, not_false_eq_true, if_true, List.cons_append, List.nil_append]
      refine ⟨rfl, ?_⟩
      simp only [Device.receiveAll, List.foldl_cons, List.foldl_nil, receive_bank, receive_select hs, Option.getD_some]
      congr 1
      unfold mkRig; omega

example : (RigChange.push ⟨true, false⟩ { value := some 4 } {}).2.2 = [⟨47, 1⟩, ⟨50, 1⟩] := by decide
example : (RigChange.push ⟨true, true⟩ { value := some 4 } {}).2.2 = [] := by decide
example : (RigChange.push ⟨false, false⟩ { value := some 0 } {}).2.2 = [⟨47, 124⟩, ⟨54, 1⟩] := by decide

/-- C44. If a push has sent something, the release sends the matching message with value 0, whatever the device has
reported in between, and once only. The device does not react to it. -/
theorem C44_release (c : RigChange) (st : State) (sh : Shared) (v : Option Int) (hs : st.sent = none) :
    let p := c.push st sh
    let r := Rigs.release { p.1 with value := v }
    r.2 = (p.2.2.getLast?.toList).map (fun m => { m with value := 0 }) ∧ r.1.sent = none ∧ r.1.value = v ∧
    (Rigs.release r.1).2 = [] ∧ ∀ d : Device, d.receiveAll r.2 = d := by
  intro p r
  have hcase : (p.1.sent = none ∧ p.2.2 = []) ∨
      ∃ k, 0 ≤ k ∧ p.1.sent = some k ∧ p.2.2.getLast? = some (rigSelect k 1) := by
    simp only [p]
    unfold RigChange.push
    cases hv : st.value with
    | none => exact .inl ⟨hs, rfl⟩
    | some w =>
      simp only
      split
      · exact .inl ⟨hs, rfl⟩
      · exact .inr ⟨_, Int.emod_nonneg _ (by omega), rfl, by simp [List.getLast?_append]⟩
  simp only [r]
  rcases hcase with ⟨h1, h2⟩ | ⟨k, hk, h1, h2⟩
  · simp [Rigs.release, h1, h2, Device.receiveAll]
  · rw [h2]
    simp only [Rigs.release, h1]
    refine ⟨rfl, trivial, trivial, trivial, fun d => ?_⟩
    simp only [Device.receiveAll, List.foldl_cons, List.foldl_nil, receive_release hk]

/-- One full press of rig up/down. -/
theorem rigs_press {c : RigChange} {st : State} {sh : Shared} {d : Device} (hd : Valid d.current)
    (hp : d.preselected = none) (hst : st.value = some d.current) (hs : st.sent = none) :
    ∃ st' sh', pressRigChange c 1 (st, sh, d) = (st', sh', { current := rigAfter c.up c.keepBank d.current }) ∧
      st'.value = some (rigAfter c.up c.keepBank d.current) ∧ st'.sent = none := by
  obtain ⟨_, h2⟩ := C44_push_partial c st sh d hd hp hst
  obtain ⟨_, h4, _, _, h5⟩ := C44_release c st sh (c.push st sh).1.value hs
  refine ⟨{ (Rigs.release (c.push st sh).1).1 with value := some (rigAfter c.up c.keepBank d.current) }, (c.push st sh).2.1,
    ?_, rfl, h4⟩
  simp only [pressRigChange]
  rw [h5, h2]

theorem rigs_press_add (c : RigChange) (n : Nat) (s : State × Shared × Device) :
    pressRigChange c (n + 1) s = pressRigChange c 1 (pressRigChange c n s) := by
  induction n generalizing s with
  | zero => rfl
  | succ n ih =>
    obtain ⟨st, sh, d⟩ := s
    rw [pressRigChange]
    exact ih _

/-- C43. Pressing rig up (down) `n` times advances the device by `n` rigs (back, respectively), cycling through all 625
rigs. In particular, 625 presses lead back, and every rig is reached from every other. -/
theorem C43_cycle (up : Bool) (n : Nat) (st : State) (sh : Shared) (d : Device) (hd : Valid d.current)
    (hp : d.preselected = none) (hst : st.value = some d.current) (hs : st.sent = none) :
    (pressRigChange ⟨up, false⟩ n (st, sh, d)).2.2.current =
      (if up then d.current + n else d.current - n) % 625 := by
  have key : ∀ n : Nat, ∃ st' sh', pressRigChange ⟨up, false⟩ n (st, sh, d) =
      (st', sh', { current := (if up then d.current + n else d.current - n) % 625 }) ∧
      st'.value = some ((if up then d.current + n else d.current - n) % 625) ∧ st'.sent = none := by
    intro n
    have hlt := hd.2
    have hge := hd.1
    induction n with
    | zero =>
      refine ⟨st, sh, ?_, ?_, hs⟩
      · simp only [pressRigChange]
        congr 2
        obtain ⟨c, p⟩ := d
        simp only at hp ⊢
        subst hp
        congr 1
        cases up <;> simp <;> exact (Int.emod_eq_of_lt hge hlt).symm
      · rw [hst]
        congr 1
        cases up <;> simp <;> exact (Int.emod_eq_of_lt hge hlt).symm
    | succ n ih =>
      obtain ⟨st', sh', h1, h2, h3⟩ := ih
      rw [rigs_press_add, h1]
      have hv : Valid ((if up then d.current + n else d.current - n) % 625) :=
        ⟨Int.emod_nonneg _ (by omega), Int.emod_lt_of_pos _ (by omega)⟩
      obtain ⟨st'', sh'', h4, h5, h6⟩ := rigs_press (c := ⟨up, false⟩) (sh := sh')
        (d := { current := (if up then d.current + n else d.current - n) % 625 }) hv rfl h2 h3
      have he : rigAfter up false ((if up then d.current + n else d.current - n) % 625) =
          (if up then d.current + (n + 1 : Nat) else d.current - (n + 1 : Nat)) % 625 := by
        cases up <;> simp [rigAfter] <;> omega
      rw [he] at h4 h5
      exact ⟨st'', sh'', h4, h5, h6⟩
  obtain ⟨st', sh', h1, _⟩ := key n
  rw [h1]

/-- C43. Rig down undoes rig up and vice versa. -/
theorem C43_inverse (up : Bool) (id : Int) (h : Valid id) :
    rigAfter (!up) false (rigAfter up false id) = id := by
  obtain ⟨h1, h2⟩ := h
  cases up <;> simp [rigAfter] <;> omega

/-- C43. With `keep_bank`, pressing `n` times stays in the bank and moves `n` slots, at most to the end. -/
theorem C43_keep_bank (up : Bool) (n : Nat) (st : State) (sh : Shared) (d : Device) (hd : Valid d.current)
    (hp : d.preselected = none) (hst : st.value = some d.current) (hs : st.sent = none) :
    (pressRigChange ⟨up, true⟩ n (st, sh, d)).2.2.current =
      mkRig (bankOf d.current) (slotAfter up (slotOf d.current) n) := by
  have hlt := hd.2
  have hge := hd.1
  have key : ∀ n : Nat, ∃ st' sh', pressRigChange ⟨up, true⟩ n (st, sh, d) =
      (st', sh', { current := mkRig (bankOf d.current) (slotAfter up (slotOf d.current) n) }) ∧
      st'.value = some (mkRig (bankOf d.current) (slotAfter up (slotOf d.current) n)) ∧ st'.sent = none := by
    intro n
    induction n with
    | zero =>
      have he : mkRig (bankOf d.current) (slotAfter up (slotOf d.current) (0 : Nat)) = d.current := by
        unfold mkRig bankOf slotOf slotAfter; cases up <;> simp <;> omega
      rw [he]
      refine ⟨st, sh, ?_, hst, hs⟩
      simp only [pressRigChange]
      congr 2
      obtain ⟨c, p⟩ := d
      simp only at hp ⊢
      rw [hp]
    | succ n ih =>
      obtain ⟨st', sh', h1, h2, h3⟩ := ih
      rw [rigs_press_add, h1]
      have hv : Valid (mkRig (bankOf d.current) (slotAfter up (slotOf d.current) n)) := by
        unfold Valid mkRig bankOf slotOf slotAfter; cases up <;> simp <;> omega
      obtain ⟨st'', sh'', h4, h5, h6⟩ := rigs_press (c := ⟨up, true⟩) (sh := sh')
        (d := { current := mkRig (bankOf d.current) (slotAfter up (slotOf d.current) n) }) hv rfl h2 h3
      have he : rigAfter up true (mkRig (bankOf d.current) (slotAfter up (slotOf d.current) n)) =
          mkRig (bankOf d.current) (slotAfter up (slotOf d.current) (n + 1 : Nat)) := by
        unfold mkRig bankOf slotOf slotAfter
        cases up <;> simp [rigAfter, slotOf] <;> split <;> omega
      rw [he] at h4 h5
      exact ⟨st'', sh'', h4, h5, h6⟩
  obtain ⟨st', sh', h1, _⟩ := key n
  rw [h1]

example : (pressRigChange ⟨true, false⟩ 4 ({ value := some 622 }, {}, { current := 622 })).2.2.current = 1 := by decide
example : (pressRigChange ⟨false, true⟩ 4 ({ value := some 7 }, {}, { current := 7 })).2.2.current = 5 := by decide

/-- C44 fails if a bank has been preselected before: rig up within the same bank sends no bank message, so the device
loads the rig from the preselected bank. Here bank 10 is preselected with a bank select button; then rig up in rig 1
loads rig 52 instead of rig 2. -/
theorem C44_preselection_pending : ∃ (b : BankSelect) (st : State) (sh : Shared) (d : Device),
    st.value = some d.current ∧ Valid d.current ∧ b.preselect = true ∧
    let p := b.push st sh
    let d' := d.receiveAll p.2.2
    (d'.receiveAll (RigChange.push ⟨true, false⟩ st p.2.1).2.2).current = 51 ∧ rigAfter true false d.current = 1 :=
  ⟨{ bank := 11, preselect := true }, { value := some 0 }, {}, { current := 0 }, rfl, by unfold Valid; decide, rfl, by decide⟩

/-! ### C45: bank up/down with preselection -/

/-- C45. Pressing a bank up/down button in preselect mode (and nothing else) `k` times: a bank in the range is
preselected, on the device and in the display, which is the current bank (or the one preselected before) plus `k` times
the offset, modulo the number of banks. The current rig does not change. -/
theorem C45_preselect (c : BankChange) (hc : c.preselect = true) (hn : 0 < c.numBanks) (st : State) (sh : Shared)
    (d : Device) (v : Int) (hv : 0 ≤ v) (hst : st.value = some v) (k : Nat) :
    let r := pressBankChange c (k + 1) (st, sh, d)
    let b := (sh.preselectedBank.getD (bankOf v) + (k + 1) * c.offset) % c.numBanks
    0 ≤ b ∧ b < c.numBanks ∧ r.2.1.preselectedBank = some b ∧ r.2.2 = { d with preselected := some b } := by
  intro r b
  refine ⟨Int.emod_nonneg _ (by omega), Int.emod_lt_of_pos _ hn, ?_⟩
  simp only [r, b]
  clear r b
  induction k generalizing sh d with
  | zero =>
    simp only [pressBankChange, BankChange.push, hc, if_true, hst]
    rw [nextBank_eq hn sh hv]
    simp [Device.receiveAll, receive_bank]
  | succ k ih =>
    have h1 : pressBankChange c (k + 1 + 1) (st, sh, d) =
        pressBankChange c (k + 1) ((c.push st sh).1, (c.push st sh).2.1, d.receiveAll (c.push st sh).2.2) := rfl
    have h2 : c.push st sh = (st, ({ sh with preselectedBank := some (c.nextBank sh v), preselectCallback := some c.id, morphOverride := some 0 } : Shared), [bankSelect (c.nextBank sh v)]) := by
      simp [BankChange.push, hc, hst]
    rw [h1, h2]
    obtain ⟨h3, h4⟩ := ih ({ sh with preselectedBank := some (c.nextBank sh v), preselectCallback := some c.id, morphOverride := some 0 } : Shared)
      (d.receiveAll [bankSelect (c.nextBank sh v)])
    simp only [Option.getD_some] at h3 h4
    have he : (c.nextBank sh v + ((k : Int) + 1) * c.offset) % c.numBanks =
        (sh.preselectedBank.getD (bankOf v) + (((k + 1 : Nat) : Int) + 1) * c.offset) % c.numBanks := by
      rw [nextBank_eq hn sh hv, Int.emod_add_emod]
      congr 1
      push_cast
      rw [Int.add_mul, Int.add_mul, Int.add_mul]
      omega
    rw [he] at h3 h4
    exact ⟨h3, by rw [h4]; simp [Device.receiveAll, receive_bank]⟩

example : (pressBankChange { offset := -1, preselect := true } 3 ({ value := some 7 }, {}, { current := 7 })).2.2 =
    { current := 7, preselected := some 123 } := by decide +kernel

/-- C45 holds for a positive number of banks only: with `max_bank = 0`, the loop never ends. -/
theorem C45_no_banks (v : Int) (hv : 0 ≤ v) (k : Nat) :
    Nat.repeat (fun o => o.bind (loopDownBody 0)) k (some v) = some v := by
  induction k with
  | zero => rfl
  | succ k ih => simp [Nat.repeat, ih, loopDownBody, hv]

/-! ### C46: rig select -/

/-- The slots configured are 1 to 5. -/
def SlotsOk (c : RigSelect) (st : SelState) : Prop :=
  (∀ r, c.rig = some r → 1 ≤ r ∧ r ≤ 5) ∧ (∀ r, st.rigOff = some r → 1 ≤ r ∧ r ≤ 5)

/-- C46. Pressing a rig select button, when no bank is preselected: the device goes to the configured rig, or to the off
rig if it is there already. -/
theorem C46_push (c : RigSelect) (st : SelState) (sh : Shared) (d : Device) (hok : SlotsOk c st) (hd : Valid d.current)
    (hst : st.value = some d.current) (hsh : sh.preselectedBank = none)
    (hp : d.preselected.getD (bankOf d.current) = bankOf d.current) :
    d.receiveAll (c.push st sh).2.2 =
      { current := meantRig c.rig c.bank st.rigOff st.bankOff d.current, preselected := none } := by
  obtain ⟨h1, h2⟩ := hd
  have hslot : ∀ b s : Int, 0 ≤ s → s ≤ 4 → (d.current = mkRig b s ↔ b = bankOf d.current ∧ s = slotOf d.current) := by
    intro b s _ _; unfold mkRig bankOf slotOf; omega
  unfold RigSelect.push
  rw [hsh]
  simp only
  -- the device after the messages
  have hdev : ∀ (bs : List CC) (s : Int), 0 ≤ s → s ≤ 4 → (bs = [] ∨ ∃ b, bs = [bankSelect b]) →
      d.receiveAll (bs ++ [rigSelect s 1]) =
        { current := mkRig ((bs.head?.map CC.value).getD (bankOf d.current)) s, preselected := none } := by
    intro bs s hs0 hs4 hbs
    rcases hbs with rfl | ⟨b, rfl⟩
    · unfold bankOf at hp
      simp [Device.receiveAll, receive_select ⟨hs0, hs4⟩, hp, bankOf]
    · simp [Device.receiveAll, receive_bank, receive_select ⟨hs0, hs4⟩]; rfl
  have hbm : c.bankMsgs st = [] ∨ ∃ b, c.bankMsgs st = [bankSelect b] := by
    unfold RigSelect.bankMsgs
    cases c.bank with
    | none => exact .inl rfl
    | some b =>
      cases st.bankOff with
      | none => exact .inr ⟨_, rfl⟩
      | some o => simp only; split <;> exact .inr ⟨_, rfl⟩
  cases hr : c.rig with
  | none =>
    have hstate : c.state st = false := by unfold RigSelect.state; rw [hst, hr]
    have hsl : c.slot st sh = some (d.current % 5) := by simp [RigSelect.slot, hstate, hr, hst]
    rw [hsl]
    simp only
    rw [hdev _ _ (by omega) (by omega) hbm]
    unfold meantRig RigSelect.bankMsgs
    rw [hstate]
    cases c.bank with
    | none => rfl
    | some b => cases st.bankOff <;> simp [bankSelect, slotOf]
  | some r =>
    have hr5 := hok.1 r hr
    have hstate : c.state st = decide (d.current = mkRig ((c.bank.map (· - 1)).getD (bankOf d.current)) (r - 1)) := by
      rw [decide_eq_decide.2 (hslot _ _ (by omega) (by omega))]
      unfold RigSelect.state
      rw [hst, hr]
      simp only
      rw [tdiv5 h1]
      have key : ∀ x : Option Int, (match x with
          | some b => if b - 1 ≠ d.current / 5 then false else decide (r - 1 = d.current % 5)
          | none => decide (r - 1 = d.current % 5)) =
          decide ((x.map (· - 1)).getD (bankOf d.current) = bankOf d.current ∧ r - 1 = slotOf d.current) := by
        intro x
        cases x with
        | none => simp [bankOf, slotOf]
        | some b =>
          by_cases hb : b - 1 = d.current / 5
          · simp [hb, bankOf, slotOf]
          · simp [hb, bankOf]
      exact key c.bank
    by_cases hcur : d.current = mkRig ((c.bank.map (· - 1)).getD (bankOf d.current)) (r - 1)
    · have hstate' : c.state st = true := by rw [hstate]; exact decide_eq_true hcur
      have hsl : c.slot st sh = some (st.rigOff.getD r - 1) := by
        simp only [RigSelect.slot, hstate', hsh, Option.isNone_none, Bool.and_self]
        cases st.rigOff <;> simp [hr]
      rw [hsl]
      simp only
      have hoff : 1 ≤ st.rigOff.getD r ∧ st.rigOff.getD r ≤ 5 := by
        cases ho : st.rigOff with
        | none => exact hr5
        | some o => exact hok.2 o ho
      rw [hdev _ _ (by omega) (by omega) hbm]
      unfold meantRig
      simp only
      rw [if_pos hcur]
      unfold RigSelect.bankMsgs
      rw [hstate']
      cases c.bank with
      | none => rfl
      | some b => cases st.bankOff <;> simp [bankSelect]
    · have hstate' : c.state st = false := by rw [hstate]; exact decide_eq_false hcur
      have hsl : c.slot st sh = some (r - 1) := by simp [RigSelect.slot, hstate', hr]
      rw [hsl]
      simp only
      rw [hdev _ _ (by omega) (by omega) hbm]
      unfold meantRig
      simp only
      rw [if_neg hcur]
      unfold RigSelect.bankMsgs
      rw [hstate']
      cases c.bank with
      | none => rfl
      | some b => cases st.bankOff <;> simp [bankSelect]

example : (Device.receiveAll { current := 13 } (RigSelect.push { rig := some 2, bank := some 4, rigOff := some 1, bankOff := some 7 }
    { value := some 13, rigOff := some 1, bankOff := some 7 } {}).2.2).current = 16 := by decide
example : (Device.receiveAll { current := 16 } (RigSelect.push { rig := some 2, bank := some 4, rigOff := some 1, bankOff := some 7 }
    { value := some 16, rigOff := some 1, bankOff := some 7 } {}).2.2).current = 30 := by decide

/-- C46. If a bank has been preselected (on the device as well), the rig select button loads its slot from this bank and
ends the preselection. -/
theorem C46_preselected (c : RigSelect) (st : SelState) (sh : Shared) (d : Device) (hok : SlotsOk c st)
    (hst : st.value = some d.current) (b : Int) (hsh : sh.preselectedBank = some b)
    (hp : d.preselected.getD (bankOf d.current) = b) :
    d.receiveAll (c.push st sh).2.2 =
      { current := mkRig b ((c.rig.map (· - 1)).getD (slotOf d.current)), preselected := none } ∧
    (c.push st sh).2.1.preselectedBank = none := by
  have hsl : c.slot st sh = some ((c.rig.map (· - 1)).getD (slotOf d.current)) := by
    simp only [RigSelect.slot, hsh, Option.isNone_some, Bool.and_false]
    cases c.rig <;> simp [hst, slotOf]
  have hs : 0 ≤ (c.rig.map (· - 1)).getD (slotOf d.current) ∧ (c.rig.map (· - 1)).getD (slotOf d.current) ≤ 4 := by
    cases hr : c.rig with
    | none => simp only [Option.map_none, Option.getD_none]; unfold slotOf; omega
    | some r => have := hok.1 r hr; simp only [Option.map_some, Option.getD_some]; omega
  unfold RigSelect.push
  rw [hsl, hsh]
  simp [Device.receiveAll, receive_select hs, hp]

/-- C46. Before the first rig ID has arrived, the button selects the configured rig. -/
theorem C46_unknown (c : RigSelect) (st : SelState) (sh : Shared) (d : Device) (hok : SlotsOk c st) (r : Int)
    (hr : c.rig = some r) (hst : st.value = none) (hsh : sh.preselectedBank = none) (hp : d.preselected = none) :
    d.receiveAll (c.push st sh).2.2 =
      { current := mkRig ((c.bank.map (· - 1)).getD (bankOf d.current)) (r - 1), preselected := none } := by
  have hr5 := hok.1 r hr
  have hstate : c.state st = false := by unfold RigSelect.state; rw [hst]
  have hsl : c.slot st sh = some (r - 1) := by simp [RigSelect.slot, hstate, hr]
  unfold RigSelect.push
  rw [hsl, hsh]
  simp only
  unfold RigSelect.bankMsgs
  rw [hstate]
  have hs : 0 ≤ r - 1 ∧ r - 1 ≤ 4 := by omega
  cases c.bank with
  | none => simp [Device.receiveAll, receive_select hs, hp]
  | some b => cases st.bankOff <;> simp [Device.receiveAll, receive_select hs, receive_bank]

/-- C46. Every press value sent is followed by its release value: if the push has selected a slot, the release sends the
same control change with value 0, whatever has happened to the other data in between; a second release sends nothing. -/
theorem C46_release (c : RigSelect) (st : SelState) (hok : SlotsOk c st) (sh : Shared) (v cv ro bo : Option Int)
    (sh' : Shared) :
    let p := c.push st sh
    let r := c.release { p.1 with value := v, currentValue := cv, rigOff := ro, bankOff := bo } sh'
    r.2.2 = (p.2.2.filter (fun m => m.number ≠ 47)).map (fun m => { m with value := 0 }) ∧
    (c.release r.1 r.2.1).2.2 = [] := by
  intro p r
  have hneg : ∀ s, c.slot st sh = some s → 0 ≤ s := by
    intro s hs
    have hmid : ∀ s, (match c.rig with
        | some r => some (r - 1)
        | none => st.value.map (· % 5)) = some s → 0 ≤ s := by
      intro s h
      cases hr : c.rig with
      | none =>
        rw [hr] at h
        obtain ⟨w, _, rfl⟩ := Option.map_eq_some_iff.1 h
        exact Int.emod_nonneg _ (by omega)
      | some r =>
        rw [hr] at h
        simp only [Option.some.injEq] at h
        have := hok.1 r hr
        omega
    unfold RigSelect.slot at hs
    split at hs
    · rename_i o _ ho
      simp only [Option.some.injEq] at hs
      have := hok.2 o ho
      omega
    · exact hmid s hs
  have hmsgs : p.2.2.filter (fun m => m.number ≠ 47) = (match c.slot st sh with
      | some s => [rigSelect s 1]
      | none => []) := by
    have hbm : (c.bankMsgs st).filter (fun m => m.number ≠ 47) = [] := by
      unfold RigSelect.bankMsgs
      cases c.bank with
      | none => rfl
      | some b =>
        cases st.bankOff with
        | none => rfl
        | some o => simp only; split <;> rfl
    have hr : (match c.slot st sh with | some s => [rigSelect s 1] | none => []).filter (fun m => decide (m.number ≠ 47)) =
        (match c.slot st sh with | some s => [rigSelect s 1] | none => []) := by
      cases hs : c.slot st sh with
      | none => rfl
      | some s =>
        have := hneg s hs
        simp only [List.filter_cons, rigSelect, List.filter_nil]
        rw [if_pos (by simp; omega)]
    simp only [p]
    unfold RigSelect.push
    simp only
    cases sh.preselectedBank with
    | none => simp only [List.filter_append, hbm, List.nil_append]; exact hr
    | some b => exact hr
  rw [hmsgs]
  have hsent : p.1.sent = c.slot st sh := by
    simp only [p]; unfold RigSelect.push; simp only; cases sh.preselectedBank <;> rfl
  simp only [r]
  unfold RigSelect.release
  simp only [hsent]
  cases c.slot st sh <;> exact ⟨rfl, rfl⟩

/-! ### C47: bank select -/

/-- C47. Pressing a bank select button (not in preselect mode), whatever bank is preselected: the device goes to the same
slot in the configured bank, or in the off bank if there is one and the configured bank is current. A pending
preselection ends. -/
theorem C47_push (c : BankSelect) (hc : c.preselect = false) (st : State) (sh : Shared) (d : Device)
    (hd : Valid d.current) (hst : st.value = some d.current) :
    let bank := if bankOf d.current = c.bank - 1 then c.bankOff.getD c.bank - 1 else c.bank - 1
    d.receiveAll (c.push st sh).2.2 = { current := mkRig bank (slotOf d.current), preselected := none } ∧
    (c.push st sh).2.1.preselectedBank = none := by
  intro bank
  obtain ⟨h1, h2⟩ := hd
  have hs : 0 ≤ d.current % 5 ∧ d.current % 5 ≤ 4 := by omega
  unfold BankSelect.push
  rw [hst]
  simp only [hc, Bool.not_false, if_true, Bool.false_eq_true, false_and, if_false]
  refine ⟨?_, trivial⟩
  rw [tdiv5 h1]
  have hoff : c.off = c.bankOff := by simp [BankSelect.off, hc]
  unfold BankSelect.bankMsg
  rw [hoff]
  simp only [bank]
  by_cases hb : bankOf d.current = c.bank - 1
  · have hb' : d.current / 5 = c.bank - 1 := hb
    rw [if_pos hb]
    cases c.bankOff <;> simp [Device.receiveAll, hb', receive_bank, receive_select hs, slotOf]
  · have hb' : ¬ d.current / 5 = c.bank - 1 := hb
    rw [if_neg hb]
    cases c.bankOff <;> simp [Device.receiveAll, hb', receive_bank, receive_select hs, slotOf]

/-- C47. In preselect mode the device only preselects the bank, no rig is selected. The preselection is shared if it is
another bank than the current one or if there has been a preselection before. -/
theorem C47_preselect (c : BankSelect) (hc : c.preselect = true) (st : State) (sh : Shared) (d : Device)
    (hd : Valid d.current) (hst : st.value = some d.current) :
    d.receiveAll (c.push st sh).2.2 = { d with preselected := some (c.bank - 1) } ∧
    (c.push st sh).1 = st ∧
    (c.push st sh).2.1.preselectedBank =
      if sh.preselectedBank ≠ none ∨ bankOf d.current ≠ c.bank - 1 then some (c.bank - 1) else none := by
  unfold BankSelect.push
  rw [hst]
  simp only [hc, Bool.not_true, Bool.false_eq_true, if_false, true_and]
  rw [tdiv5 hd.1]
  have hoff : c.off = none := by simp [BankSelect.off, hc]
  have hmsg : ∀ b, c.bankMsg b = bankSelect (c.bank - 1) := by intro b; unfold BankSelect.bankMsg; rw [hoff]
  rw [hmsg]
  refine ⟨by simp [Device.receiveAll, receive_bank], ?_⟩
  unfold bankOf
  by_cases h : sh.preselectedBank ≠ none ∨ d.current / 5 ≠ c.bank - 1
  · rw [if_pos h, if_pos h]
  · rw [if_neg h, if_neg h]
    exact Classical.byContradiction fun h' => h (.inl h')

/-- C47. The release sends the matching message with value 0, once. -/
theorem C47_release (c : BankSelect) (st : State) (sh : Shared) (v : Option Int) (hs : st.sent = none) :
    let p := c.push st sh
    let r := Rigs.release { p.1 with value := v }
    r.2 = (p.2.2.filter (fun m => m.number ≠ 47)).map (fun m => { m with value := 0 }) ∧ (Rigs.release r.1).2 = [] := by
  intro p r
  have hcase : (p.1.sent = none ∧ p.2.2.filter (fun m => m.number ≠ 47) = []) ∨
      ∃ k, p.1.sent = some k ∧ p.2.2.filter (fun m => m.number ≠ 47) = [rigSelect k 1] := by
    simp only [p]
    unfold BankSelect.push
    cases hv : st.value with
    | none => exact .inl ⟨hs, rfl⟩
    | some w =>
      have hbm : ∃ z, c.bankMsg (Int.tdiv w 5) = bankSelect z := by
        unfold BankSelect.bankMsg
        cases c.off with
        | none => exact ⟨_, rfl⟩
        | some o => simp only; split <;> exact ⟨_, rfl⟩
      simp only
      obtain ⟨z, hz⟩ := hbm
      rw [hz]
      have h5 : 0 ≤ w % 5 := Int.emod_nonneg _ (by omega)
      cases c.preselect with
      | true => exact .inl ⟨hs, rfl⟩
      | false =>
        refine .inr ⟨w % 5, rfl, ?_⟩
        simp only [Bool.not_false, if_true, List.filter_cons, bankSelect, rigSelect, List.filter_nil]
        rw [if_neg (by simp), if_pos (by simp; omega)]
  simp only [r]
  rcases hcase with ⟨h1, h2⟩ | ⟨k, h1, h2⟩
  · rw [h2]; simp [Rigs.release, h1]
  · rw [h2]; simp [Rigs.release, h1, rigSelect]

/-! ### C70: the automatic off rig -/

/-- A full press of a rig select button. -/
theorem rigs_press_select {c : RigSelect} {st : SelState} {sh : Shared} {id : Int} (hok : SlotsOk c st) (hd : Valid id)
    (hst : st.value = some id) (hsh : sh.preselectedBank = none) :
    ∃ sh', sh'.preselectedBank = none ∧ pressRigSelect c (st, sh, { current := id }) =
      (c.updateDisplays { st with value := some (meantRig c.rig c.bank st.rigOff st.bankOff id), sent := none }, sh',
        { current := meantRig c.rig c.bank st.rigOff st.bankOff id }) := by
  have h1 := C46_push c st sh { current := id } hok hd hst hsh rfl
  obtain ⟨h2, _⟩ := C46_release c st hok sh (c.push st sh).1.value (c.push st sh).1.currentValue (c.push st sh).1.rigOff
    (c.push st sh).1.bankOff (c.push st sh).2.1
  have hpush : (c.push st sh).1 = { st with sent := c.slot st sh } ∧ (c.push st sh).2.1.preselectedBank = none := by
    unfold RigSelect.push; simp only; rw [hsh]; exact ⟨rfl, rfl⟩
  have hrel : ∀ (s : SelState) (x : Shared), (c.release s x).1 = { s with sent := none } ∧
      (c.release s x).2.1.preselectedBank = x.preselectedBank := by
    intro s x
    have hx : (match s.value with
        | none => x
        | some v =>
          if c.rigBtnMorph ∧ s.rigOff = none ∧ s.bankOff = none ∧ c.isCurrent v ∧ c.momentaryMorph then
            { x with morphOverride := some 0 }
          else x).preselectedBank = x.preselectedBank := by
      split
      · rfl
      · split <;> rfl
    unfold RigSelect.release
    simp only
    cases hs : s.sent with
    | none =>
      obtain ⟨a, b, d, e, f⟩ := s
      simp only at hs
      subst hs
      exact ⟨rfl, hx⟩
    | some r => exact ⟨rfl, hx⟩
  have hdev : ∀ (d : Device) (ms : List CC), (∀ m ∈ ms, m.number ≠ 47 ∧ m.value = 0) → d.receiveAll ms = d := by
    intro d ms
    induction ms generalizing d with
    | nil => intro _; rfl
    | cons m ms ih =>
      intro hm
      have h := hm m (by simp)
      have : d.receive m = d := by simp [Device.receive, h.1, h.2]
      show (d.receive m).receiveAll ms = d
      rw [this]
      exact ih d (fun m hm' => hm m (List.mem_cons_of_mem _ hm'))
  refine ⟨(c.release (c.push st sh).1 (c.push st sh).2.1).2.1, by rw [(hrel _ _).2, hpush.2], ?_⟩
  have h3 : ∀ d : Device, d.receiveAll (c.release (c.push st sh).1 (c.push st sh).2.1).2.2 = d := by
    intro d
    apply hdev
    intro m hm
    have h2' : (c.release (c.push st sh).1 (c.push st sh).2.1).2.2 =
      ((c.push st sh).2.2.filter (fun m => m.number ≠ 47)).map (fun m => { m with value := 0 }) := h2
    rw [h2'] at hm
    obtain ⟨m', hm', rfl⟩ := List.mem_map.1 hm
    have := (List.mem_filter.1 hm').2
    exact ⟨by simpa using this, rfl⟩
  unfold pressRigSelect
  simp only
  rw [h3, h1]
  simp only
  rw [(hrel _ _).1, hpush.1]

/-- C70. With automatic off rig (and bank, if a bank is configured): pressing the button twice leads back to the rig the
device was in, if this rig is in another slot (and another bank, if a bank is configured) than the configured one. -/
theorem C70_auto_partial (c : RigSelect) (s : SelState) (sh : Shared) (id : Int) (hid : Valid id) (r : Int)
    (hr : c.rig = some r) (hr5 : 1 ≤ r ∧ r ≤ 5) (hauto : c.rigOffAuto = true) (hex : slotOf id + 1 ∉ c.exclude)
    (hslot : slotOf id ≠ r - 1) (hnew : s.currentValue ≠ some id) (hsh : sh.preselectedBank = none)
    (hbank : c.bank = none ∨ ∃ b, c.bank = some b ∧ 1 ≤ b ∧ b ≤ 125 ∧ c.bankOffAuto = true ∧ bankOf id ≠ b - 1) :
    (pressRigSelect c (pressRigSelect c (c.updateDisplays { s with value := some id }, sh, { current := id }))).2.2.current
      = id := by
  obtain ⟨h1, h2⟩ := hid
  -- the off rig and bank are remembered
  have h0 : ∃ bo, c.updateDisplays { s with value := some id } =
      { s with value := some id, currentValue := some id, rigOff := some (slotOf id + 1), bankOff := bo } ∧
      ∀ b, c.bank = some b → bo = some (bankOf id + 1) := by
    unfold RigSelect.updateDisplays
    simp only
    rw [if_pos (by simpa using fun h => hnew h.symm), tdiv5 h1, hr]
    simp only
    have hex' : id % 5 + 1 ∉ c.exclude := hex
    have hslot' : ¬ id % 5 = r - 1 := hslot
    rw [if_pos ⟨hex', hauto, hslot'⟩]
    refine ⟨_, rfl, ?_⟩
    intro b hb
    rcases hbank with h | ⟨b', hb', _, _, ha, hne⟩
    · rw [hb] at h; simp at h
    · rw [hb] at hb'
      simp only [Option.some.injEq] at hb'
      subst hb'
      rw [hb]
      simp only
      have hne' : ¬ id / 5 = b - 1 := hne
      rw [if_pos ⟨ha, hne'⟩]; rfl
  obtain ⟨bo, h0, hbo⟩ := h0
  rw [h0]
  have hrange : 1 ≤ slotOf id + 1 ∧ slotOf id + 1 ≤ 5 := by unfold slotOf; omega
  have hok : ∀ (a b d : Option Int), SlotsOk c ⟨a, b, d, some (slotOf id + 1), bo⟩ := by
    intro a b d
    refine ⟨fun r' h => ?_, fun r' h => ?_⟩
    · rw [hr] at h; simp only [Option.some.injEq] at h; omega
    · simp only [Option.some.injEq] at h; omega
  obtain ⟨sh₁, hsh₁, hp₁⟩ := rigs_press_select (c := c) (hok (some id) s.sent (some id)) ⟨h1, h2⟩ rfl hsh
  have hon : meantRig c.rig c.bank (some (slotOf id + 1)) bo id =
      mkRig ((c.bank.map (· - 1)).getD (bankOf id)) (r - 1) := by
    unfold meantRig
    rw [hr]
    simp only
    rw [if_neg]
    intro h
    apply hslot
    unfold mkRig at h
    unfold slotOf
    omega
  simp only at hp₁
  rw [hp₁, hon]
  have hvalid : Valid (mkRig ((c.bank.map (· - 1)).getD (bankOf id)) (r - 1)) := by
    unfold Valid mkRig
    rcases hbank with h | ⟨b, hb, hb1, hb2, _⟩
    · rw [h]; simp only [Option.map_none, Option.getD_none]; unfold bankOf; omega
    · rw [hb]; simp only [Option.map_some, Option.getD_some]; omega
  -- the displays are updated with the configured rig, the off rig stays
  have h4 : ∃ cv, c.updateDisplays ⟨some (mkRig ((c.bank.map (· - 1)).getD (bankOf id)) (r - 1)), none, some id,
      some (slotOf id + 1), bo⟩ =
      ⟨some (mkRig ((c.bank.map (· - 1)).getD (bankOf id)) (r - 1)), none, cv, some (slotOf id + 1), bo⟩ := by
    unfold RigSelect.updateDisplays
    simp only
    split
    · rw [tdiv5 hvalid.1, hr]
      simp only
      rw [if_neg (by rintro ⟨_, _, h⟩; apply h; unfold mkRig; omega)]
      rcases hbank with h | ⟨b, hb, _, _, _, _⟩
      · rw [h]; exact ⟨_, rfl⟩
      · rw [hb]
        simp only
        rw [if_neg]
        · exact ⟨_, rfl⟩
        · rintro ⟨_, h⟩
          apply h
          simp only [Option.map_some, Option.getD_some]
          unfold mkRig
          omega
    · exact ⟨_, rfl⟩
  obtain ⟨cv, h4⟩ := h4
  rw [h4]
  obtain ⟨sh₂, _, hp₂⟩ := rigs_press_select (c := c) (hok _ none cv) hvalid rfl hsh₁
  rw [hp₂]
  simp only
  unfold meantRig
  rw [hr]
  simp only
  rcases hbank with h | ⟨b, hb, _, _, _, _⟩
  · rw [h]
    simp only [Option.map_none, Option.getD_none, Option.getD_some]
    rw [if_pos (by unfold mkRig bankOf; omega)]
    unfold mkRig bankOf slotOf
    omega
  · rw [hb, hbo b hb]
    simp only [Option.map_some, Option.getD_some, if_true]
    unfold mkRig bankOf slotOf
    omega

/-- The example: rig 2, bank 5, both off values automatic. -/
def exAuto : RigSelect := { rig := some 2, bank := some 5, rigOffAuto := true, bankOffAuto := true }

example : ∃ s, exAuto.init = some s ∧ s.currentValue ≠ some 13 ∧ slotOf 13 ≠ 2 - 1 ∧ bankOf 13 ≠ 5 - 1 := by
  exact ⟨_, rfl, by decide⟩

/-- C70 fails if the device was in the same slot of another bank (here rig 3-2, button for rig 5-2): the second press leads
to slot 1 of this bank. -/
theorem C70_same_slot : ∃ s, exAuto.init = some s ∧
    (pressRigSelect exAuto (pressRigSelect exAuto (exAuto.updateDisplays { s with value := some 11 }, {}, { current := 11 }))).2.2.current
      = 10 := ⟨_, rfl, by decide⟩

/-- C70 fails if the device was in another slot of the same bank (here rig 5-4, button for rig 5-2): the second press leads
to this slot in bank 1. -/
theorem C70_same_bank : ∃ s, exAuto.init = some s ∧
    (pressRigSelect exAuto (pressRigSelect exAuto (exAuto.updateDisplays { s with value := some 23 }, {}, { current := 23 }))).2.2.current
      = 3 := ⟨_, rfl, by decide⟩

end PySwitch.Props
