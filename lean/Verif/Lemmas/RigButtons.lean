import Verif.Spec.RigButtons
import Verif.Props.Rigs
import Verif.Props.VirtualSetup

/-!
For C161 and C162: a panel of rig and bank buttons with the virtual Kemper.
-/

namespace PySwitch.RigButtons
open PySwitch.Rigs PySwitch.RigButtons.Spec PySwitch.Kemper PySwitch.Kemper.Setup.Spec

/-- The button of a configuration after the rigs `seen`, when it is not held. -/
def btn (seen : List Int) : Config → Button
  | .rigChange c => .rigChange c ⟨seen.head?, none⟩
  | .bankChange c => .bankChange c ⟨seen.head?, none⟩
  | .bankSelect c => .bankSelect c ⟨seen.head?, none⟩
  | .rigSelect c => .rigSelect c ⟨seen.head?, none, seen.head?, otherRig c seen, otherBank c seen⟩

def setSent (x : Option Int) : Button → Button
  | .rigChange c st => .rigChange c { st with sent := x }
  | .bankChange c st => .bankChange c st
  | .bankSelect c st => .bankSelect c { st with sent := x }
  | .rigSelect c st => .rigSelect c { st with sent := x }

theorem otherRig_cons (c : RigSelect) (r : Int) (seen : List Int) :
    otherRig c (r :: seen) = match c.rig with
      | some q => if (r % 5 + 1) ∉ c.exclude ∧ c.rigOffAuto ∧ r % 5 ≠ q - 1 then some (r % 5 + 1) else otherRig c seen
      | none => otherRig c seen := by
  unfold otherRig
  cases hq : c.rig with
  | none => rfl
  | some q =>
    simp only
    cases ha : c.rigOffAuto with
    | false => simp
    | true =>
      simp only [if_true, List.find?_cons, slotOf]
      by_cases h : r % 5 ≠ q - 1 ∧ r % 5 + 1 ∉ c.exclude
      · rw [if_pos ⟨h.2, trivial, h.1⟩]
        simp [h]
      · rw [if_neg (fun h' => h ⟨h'.2.2, h'.1⟩)]
        simp only [h, decide_false]

theorem otherBank_cons (c : RigSelect) (r : Int) (seen : List Int) :
    otherBank c (r :: seen) = match c.bank with
      | some q => if c.bankOffAuto ∧ r / 5 ≠ q - 1 then some (r / 5 + 1) else otherBank c seen
      | none => otherBank c seen := by
  unfold otherBank
  cases hq : c.bank with
  | none => rfl
  | some q =>
    simp only
    cases ha : c.bankOffAuto with
    | false => simp
    | true =>
      simp only [if_true, List.find?_cons, bankOf]
      by_cases h : r / 5 ≠ q - 1
      · rw [if_pos ⟨trivial, h⟩]
        simp [h]
      · rw [if_neg (fun h' => h h'.2)]
        simp only [h, decide_false]

theorem otherRig_dup (c : RigSelect) (r : Int) (seen : List Int) (h : seen.head? = some r) : otherRig c (r :: seen) = otherRig c seen := by
  cases seen with
  | nil => simp at h
  | cons a l =>
    simp only [List.head?_cons, Option.some.injEq] at h
    subst h
    rw [otherRig_cons, otherRig_cons]
    cases c.rig with
    | none => rfl
    | some q => simp only; split <;> rfl

theorem otherBank_dup (c : RigSelect) (r : Int) (seen : List Int) (h : seen.head? = some r) : otherBank c (r :: seen) = otherBank c seen := by
  cases seen with
  | nil => simp at h
  | cons a l =>
    simp only [List.head?_cons, Option.some.injEq] at h
    subst h
    rw [otherBank_cons, otherBank_cons]
    cases c.bank with
    | none => rfl
    | some q => simp only; split <;> rfl

/-- The displays of a rig select button are updated. -/
theorem update_eq (c : RigSelect) (r : Int) (hr : 0 ≤ r) (seen : List Int) (s cv : Option Int) (hcv : cv = some r → seen.head? = some r) :
    c.updateDisplays ⟨some r, s, cv, otherRig c seen, otherBank c seen⟩ =
      ⟨some r, s, some r, otherRig c (r :: seen), otherBank c (r :: seen)⟩ := by
  unfold RigSelect.updateDisplays
  simp only
  by_cases h : some r ≠ cv
  · rw [if_pos h, otherRig_cons, otherBank_cons, tdiv5 hr]
    cases c.rig <;> cases c.bank <;> rfl
  · rw [if_neg h]
    have h : cv = some r := (Decidable.not_not.1 h).symm
    rw [otherRig_dup c r seen (hcv h), otherBank_dup c r seen (hcv h), h]

theorem report_btn (r : Int) (hr : 0 ≤ r) (seen : List Int) (c : Config) : (btn seen c).report r = btn (r :: seen) c := by
  cases c with
  | rigSelect c =>
    simp only [btn, Button.report]
    rw [update_eq c r hr seen none seen.head? (fun h => h)]
    rfl
  | _ => rfl

theorem btn_dup (r : Int) (seen : List Int) (h : seen.head? = some r) (c : Config) : btn (r :: seen) c = btn seen c := by
  cases c <;> simp [btn, h, otherRig_dup _ r seen, otherBank_dup _ r seen]

theorem report_set (r : Int) (x : Option Int) (b : Button) : (setSent x b).report r = setSent x (b.report r) := by
  cases b with
  | rigSelect c st =>
    simp only [setSent, Button.report, RigSelect.updateDisplays]
    split <;> rfl
  | _ => rfl

/-- Releasing. -/
theorem release_set (sh : Shared) (x : Option Int) (seen : List Int) (c : Config) (hx : ∀ k, c = .bankChange k → x = none) :
    ∃ sh', (setSent x (btn seen c)).release sh = (btn seen c, sh', x.toList.map fun s => rigSelect s 0) ∧
      sh'.preselectedBank = sh.preselectedBank := by
  cases c with
  | rigChange c => cases x <;> exact ⟨sh, rfl, rfl⟩
  | bankChange c => rw [hx c rfl]; exact ⟨sh, rfl, rfl⟩
  | bankSelect c => cases x <;> exact ⟨sh, rfl, rfl⟩
  | rigSelect c =>
    have hp : ∀ (st : SelState) (sh : Shared), (c.release st sh).2.1.preselectedBank = sh.preselectedBank := by
      intro st sh
      unfold RigSelect.release
      cases st.sent <;> cases st.value <;> simp only
      all_goals split <;> rfl
    refine ⟨(c.release { (⟨seen.head?, none, seen.head?, otherRig c seen, otherBank c seen⟩ : SelState) with sent := x } sh).2.1, ?_, hp _ _⟩
    cases x <;> rfl

/-! ### The device -/

/-- The messages as they arrive. -/
def told (p : Player) (ms : List CC) : Player := ms.foldl (fun p m => p.message (bytes m)) p

def Small7 (ms : List CC) : Prop := ∀ m ∈ ms, m.number.toNat < 128 ∧ m.value.toNat < 128

theorem told_view {d : Setup.Device} {p : Player} (h : Setup.View d p) (ms : List CC) (hm : Small7 ms) (now : Int) (date : List Nat) :
    Setup.View (d.run (ms.map fun m => .receive now date (bytes m))).1 (told p ms) := by
  have := Setup.view_run h (ms.map fun m => .receive now date (bytes m)) (by
    intro e he
    obtain ⟨m, hm', rfl⟩ := List.mem_map.1 he
    exact (Props.C133.midi_cc _ _).2 (hm m hm'))
  rw [List.foldl_map] at this
  exact this

/-- What a button sends when it is pushed: maybe a bank, and maybe a slot, which is sent again when it is released. -/
inductive Sends : Option Int → List CC → Prop
  | nothing : Sends none []
  | bank (b : Int) : 0 ≤ b → b < 125 → Sends none [bankSelect b]
  | slot (s : Int) : 0 ≤ s → s ≤ 4 → Sends (some s) [rigSelect s 1]
  | both (b s : Int) : 0 ≤ b → b < 125 → 0 ≤ s → s ≤ 4 → Sends (some s) [bankSelect b, rigSelect s 1]

theorem Sends.small {x : Option Int} {ms : List CC} (h : Sends x ms) : Small7 ms ∧ Small7 (x.toList.map fun s => rigSelect s 0) := by
  cases h <;> constructor <;> intro m hm <;> simp [bankSelect, rigSelect] at hm <;> rcases hm with rfl | rfl <;> simp <;> omega

/-- The device of the documentation for the state of the virtual one. -/
def docu (p : Player) : Rigs.Device := ⟨p.rig, p.preselected.map Int.ofNat⟩

theorem told_bank (p : Player) (b : Int) : p.message (bytes (bankSelect b)) = { p with preselected := some b.toNat } := rfl

theorem told_slot (p : Player) (s : Int) (hs : 0 ≤ s) (hs4 : s ≤ 4) (v : Int) :
    p.message (bytes (rigSelect s v)) = p.press s.toNat v.toNat := by
  have h : (50 + s).toNat = 50 + s.toNat := by omega
  show p.message [176, (50 + s).toNat, v.toNat] = _
  rw [h]
  have h4 : s.toNat ≤ 4 := by omega
  unfold Player.message
  simp only
  rw [if_neg (by omega), if_neg (by omega), if_neg (by omega), if_neg (by omega), if_pos (by omega)]
  congr 1
  omega

theorem press_press (p : Player) (hz : ∀ i, p.button i = 0) (s : Nat) :
    (p.press s 1).rig = 5 * p.preselected.getD (p.rig / 5) + s ∧ ((p.press s 1).press s 0).rig = (p.press s 1).rig ∧
    ((p.press s 1).press s 0).preselected = none ∧ ∀ i, ((p.press s 1).press s 0).button i = 0 := by
  have h1 : p.press s 1 = ⟨5 * p.preselected.getD (p.rig / 5) + s, none, fun i => if i = s then 1 else p.button i⟩ := by
    unfold Player.press
    rw [if_neg (by rw [hz]; omega)]
    rfl
  rw [h1]
  have h2 : (Player.press ⟨5 * p.preselected.getD (p.rig / 5) + s, none, fun i => if i = s then 1 else p.button i⟩ s 0) =
      ⟨5 * p.preselected.getD (p.rig / 5) + s, none, fun i => if i = s then 0 else if i = s then 1 else p.button i⟩ := by
    unfold Player.press
    simp
  rw [h2]
  refine ⟨rfl, rfl, rfl, ?_⟩
  intro i
  simp only
  split
  · rfl
  · exact hz i

/-- Pushing and releasing, for the virtual device and the one of the documentation. -/
theorem told_docu {x : Option Int} {ms : List CC} (h : Sends x ms) (p : Player) (hz : ∀ i, p.button i = 0) :
    let p1 := told p ms
    let p2 := told p1 (x.toList.map fun s => rigSelect s 0)
    p2.rig = p1.rig ∧ docu p2 = (docu p).receiveAll ms ∧ ∀ i, p2.button i = 0 := by
  cases h with
  | nothing => exact ⟨rfl, rfl, hz⟩
  | bank b h0 h1 =>
    refine ⟨rfl, ?_, hz⟩
    show docu (p.message (bytes (bankSelect b))) = (docu p).receive (bankSelect b)
    rw [told_bank, Rigs.receive_bank]
    simp only [docu, Option.map_some, Device.mk.injEq, true_and, Option.some.injEq]
    show (b.toNat : Int) = b
    omega
  | slot s h0 h1 =>
    obtain ⟨e1, e2, e3, e4⟩ := press_press p hz s.toNat
    show ((p.message (bytes (rigSelect s 1))).message (bytes (rigSelect s 0))).rig = (p.message (bytes (rigSelect s 1))).rig ∧
      docu ((p.message (bytes (rigSelect s 1))).message (bytes (rigSelect s 0))) = (docu p).receive (rigSelect s 1) ∧
      ∀ i, ((p.message (bytes (rigSelect s 1))).message (bytes (rigSelect s 0))).button i = 0
    rw [told_slot _ s h0 h1, told_slot _ s h0 h1]
    refine ⟨e2, ?_, e4⟩
    rw [receive_select ⟨h0, h1⟩]
    show Rigs.Device.mk _ _ = _
    simp only [Int.toNat_one, Int.toNat_zero]
    rw [e2, e1, e3]
    simp only [docu, mkRig, bankOf, Option.map_none, Device.mk.injEq, and_true]
    cases p.preselected <;> simp <;> omega
  | both b s hb0 hb1 h0 h1 =>
    obtain ⟨e1, e2, e3, e4⟩ := press_press { p with preselected := some b.toNat } hz s.toNat
    show (((p.message (bytes (bankSelect b))).message (bytes (rigSelect s 1))).message (bytes (rigSelect s 0))).rig =
        ((p.message (bytes (bankSelect b))).message (bytes (rigSelect s 1))).rig ∧
      docu (((p.message (bytes (bankSelect b))).message (bytes (rigSelect s 1))).message (bytes (rigSelect s 0))) =
        ((docu p).receive (bankSelect b)).receive (rigSelect s 1) ∧
      ∀ i, (((p.message (bytes (bankSelect b))).message (bytes (rigSelect s 1))).message (bytes (rigSelect s 0))).button i = 0
    rw [told_bank, told_slot _ s h0 h1, told_slot _ s h0 h1]
    refine ⟨e2, ?_, e4⟩
    rw [receive_select ⟨h0, h1⟩, Rigs.receive_bank]
    show Rigs.Device.mk _ _ = _
    simp only [Int.toNat_one, Int.toNat_zero]
    rw [e2, e1, e3]
    simp only [docu, mkRig, Option.map_none, Device.mk.injEq, and_true, Option.getD_some]
    omega

/-! ### Pushing -/

theorem push_rigChange (c : RigChange) (r : Int) (hr : Rigs.Valid r) (l : List Int) (sh : Shared) :
    ∃ x sh' ms, (btn (r :: l) (.rigChange c)).push sh = (setSent x (btn (r :: l) (.rigChange c)), sh', ms) ∧ Sends x ms ∧
      sh'.preselectedBank = sh.preselectedBank ∧
      (⟨r, none⟩ : Rigs.Device).receiveAll ms = ⟨rigAfter c.up c.keepBank r, none⟩ := by
  obtain ⟨h1, h2⟩ := Props.C44_push_partial c ⟨some r, none⟩ sh ⟨r, none⟩ hr rfl rfl
  have hv := Props.C43_valid c.up c.keepBank r hr
  have hnext : c.nextRig (r % 5) r = rigAfter c.up c.keepBank r := next_eq hr
  refine ⟨(c.push ⟨some r, none⟩ sh).1.sent, (c.push ⟨some r, none⟩ sh).2.1, (c.push ⟨some r, none⟩ sh).2.2, ?_, ?_, ?_, h2⟩
  · show (Button.rigChange c (c.push ⟨some r, none⟩ sh).1, (c.push ⟨some r, none⟩ sh).2.1, (c.push ⟨some r, none⟩ sh).2.2) = _
    refine Prod.ext ?_ rfl
    show Button.rigChange c _ = Button.rigChange c _
    congr 1
    unfold RigChange.push
    simp only
    split <;> rfl
  · unfold RigChange.push
    simp only
    rw [hnext, tdiv5 hr.1, tdiv5 hv.1]
    split
    · exact .nothing
    · obtain ⟨h3, h4⟩ := hv
      simp only
      split
      · exact .both _ _ (by omega) (by omega) (by omega) (by omega)
      · exact .slot _ (by omega) (by omega)
  · unfold RigChange.push
    simp only
    split <;> rfl

theorem push_bankPreselect (c : BankChange) (hc : c.preselect = true) (hn : 1 ≤ c.numBanks ∧ c.numBanks ≤ 125) (r : Int) (hr : Rigs.Valid r)
    (l : List Int) (sh : Shared) :
    let b := (sh.preselectedBank.getD (bankOf r) + c.offset) % c.numBanks
    ∃ sh', (btn (r :: l) (.bankChange c)).push sh = (setSent none (btn (r :: l) (.bankChange c)), sh', [bankSelect b]) ∧
      sh'.preselectedBank = some b ∧ 0 ≤ b ∧ b < 125 := by
  intro b
  have hb0 : 0 ≤ b := Int.emod_nonneg _ (by omega)
  have hb1 : b < c.numBanks := Int.emod_lt_of_pos _ (by omega)
  refine ⟨(c.push ⟨some r, none⟩ sh).2.1, ?_, ?_, hb0, by omega⟩
  · show (Button.bankChange c (c.push ⟨some r, none⟩ sh).1, (c.push ⟨some r, none⟩ sh).2.1, (c.push ⟨some r, none⟩ sh).2.2) = _
    unfold BankChange.push
    rw [if_pos hc]
    simp only
    rw [nextBank_eq (by omega) sh hr.1]
    rfl
  · unfold BankChange.push
    rw [if_pos hc]
    simp only
    rw [nextBank_eq (by omega) sh hr.1]

theorem push_bankPlain (c : BankChange) (hc : c.preselect = false) (l : List Int) (sh : Shared) :
    ∃ sh', (btn l (.bankChange c)).push sh = (setSent none (btn l (.bankChange c)), sh', [⟨c.number, 0⟩]) ∧
      sh'.preselectedBank = sh.preselectedBank := by
  refine ⟨(c.push ⟨l.head?, none⟩ sh).2.1, ?_, ?_⟩
  · show (Button.bankChange c (c.push ⟨l.head?, none⟩ sh).1, (c.push ⟨l.head?, none⟩ sh).2.1, (c.push ⟨l.head?, none⟩ sh).2.2) = _
    unfold BankChange.push
    rw [if_neg (by simp [hc])]
    rfl
  · unfold BankChange.push
    rw [if_neg (by simp [hc])]

theorem push_bankSelect (c : BankSelect) (hb : Bank c.bank) (ho : ∀ o, c.bankOff = some o → Bank o) (r : Int) (hr : Rigs.Valid r)
    (l : List Int) (sh : Shared) :
    ∃ x sh' ms, (btn (r :: l) (.bankSelect c)).push sh = (setSent x (btn (r :: l) (.bankSelect c)), sh', ms) ∧ Sends x ms ∧
      ms = (c.push ⟨some r, none⟩ sh).2.2 ∧ sh' = (c.push ⟨some r, none⟩ sh).2.1 ∧ (c.preselect = false → x ≠ none) := by
  obtain ⟨b0, b1⟩ := hb
  obtain ⟨h1, h2⟩ := hr
  have hm : ∃ b, c.bankMsg (r.tdiv 5) = bankSelect b ∧ 0 ≤ b ∧ b < 125 := by
    unfold BankSelect.bankMsg
    cases ho' : c.off with
    | none => exact ⟨_, rfl, by omega, by omega⟩
    | some o =>
      simp only
      split
      · exact ⟨_, rfl, by omega, by omega⟩
      · have : c.bankOff = some o := by
          unfold BankSelect.off at ho'
          split at ho'
          · simp at ho'
          · exact ho'
        obtain ⟨o1, o2⟩ := ho o this
        exact ⟨_, rfl, by omega, by omega⟩
  obtain ⟨b, hm, hb0, hb1⟩ := hm
  refine ⟨(c.push ⟨some r, none⟩ sh).1.sent, (c.push ⟨some r, none⟩ sh).2.1, (c.push ⟨some r, none⟩ sh).2.2, ?_, ?_, rfl, rfl,
    fun hc => by unfold BankSelect.push; simp [hc]⟩
  · show (Button.bankSelect c (c.push ⟨some r, none⟩ sh).1, (c.push ⟨some r, none⟩ sh).2.1, (c.push ⟨some r, none⟩ sh).2.2) = _
    refine Prod.ext ?_ rfl
    show Button.bankSelect c _ = Button.bankSelect c _
    congr 1
    unfold BankSelect.push
    cases c.preselect <;> rfl
  · unfold BankSelect.push
    simp only
    rw [hm]
    cases c.preselect
    · exact .both _ _ hb0 hb1 (by omega) (by omega)
    · exact .bank _ hb0 hb1

theorem otherRig_slot (c : RigSelect) (hc : Spec.Valid (.rigSelect c)) (seen : List Int) :
    ∀ r, otherRig c seen = some r → Slot r := by
  intro r
  unfold otherRig
  cases c.rigOffAuto with
  | false => exact hc.2.1 r
  | true =>
    simp only [if_true]
    cases c.rig with
    | none => intro h; cases h; unfold Slot; omega
    | some q =>
      simp only [Option.some.injEq]
      rintro rfl
      cases seen.find? fun id => slotOf id ≠ q - 1 ∧ slotOf id + 1 ∉ c.exclude with
      | none => unfold Slot; simp
      | some v => simp only [Option.map_some, Option.getD_some, Slot, slotOf]; omega

theorem otherBank_bank (c : RigSelect) (hc : Spec.Valid (.rigSelect c)) (seen : List Int) (hs : ∀ v ∈ seen, Rigs.Valid v) :
    ∀ b, otherBank c seen = some b → Bank b := by
  intro b
  unfold otherBank
  cases c.bankOffAuto with
  | false => exact hc.2.2.2 b
  | true =>
    simp only [if_true]
    cases c.bank with
    | none => intro h; cases h; unfold Bank; omega
    | some q =>
      simp only [Option.some.injEq]
      rintro rfl
      cases hf : seen.find? fun id => bankOf id ≠ q - 1 with
      | none => unfold Bank; simp
      | some v =>
        obtain ⟨h1, h2⟩ := hs v (List.mem_of_find?_eq_some hf)
        simp only [Option.map_some, Option.getD_some, Bank, bankOf]
        omega

theorem push_rigSelect (c : RigSelect) (hc : Spec.Valid (.rigSelect c)) (r : Int) (l : List Int) (hs : ∀ v ∈ r :: l, Rigs.Valid v)
    (sh : Shared) :
    let st : SelState := ⟨some r, none, some r, otherRig c (r :: l), otherBank c (r :: l)⟩
    ∃ x sh' ms, (btn (r :: l) (.rigSelect c)).push sh = (setSent x (btn (r :: l) (.rigSelect c)), sh', ms) ∧ Sends x ms ∧
      ms = (c.push st sh).2.2 ∧ sh'.preselectedBank = none ∧ x ≠ none := by
  intro st
  have hslot : ∃ s, c.slot st sh = some s ∧ 0 ≤ s ∧ s ≤ 4 := by
    have hmid : ∃ s, (match c.rig with
        | some r => some (r - 1)
        | none => st.value.map (· % 5)) = some s ∧ 0 ≤ s ∧ s ≤ 4 := by
      cases hr : c.rig with
      | none => exact ⟨r % 5, rfl, by omega, by omega⟩
      | some q => obtain ⟨q1, q2⟩ := hc.1 q hr; exact ⟨q - 1, rfl, by omega, by omega⟩
    unfold RigSelect.slot
    cases h1 : (c.state st && sh.preselectedBank.isNone) with
    | false =>
      obtain ⟨s, h, h'⟩ := hmid
      refine ⟨s, ?_, h'⟩
      rw [← h]
      cases c.rig <;> rfl
    | true =>
      cases h2 : st.rigOff with
      | none =>
        obtain ⟨s, h, h'⟩ := hmid
        refine ⟨s, ?_, h'⟩
        rw [← h]
        cases c.rig <;> rfl
      | some o =>
        obtain ⟨o1, o2⟩ := otherRig_slot c hc _ o h2
        exact ⟨o - 1, rfl, by omega, by omega⟩
  obtain ⟨s, hs', s0, s4⟩ := hslot
  have hbank : c.bankMsgs st = [] ∨ ∃ b, c.bankMsgs st = [bankSelect b] ∧ 0 ≤ b ∧ b < 125 := by
    unfold RigSelect.bankMsgs
    cases hb : c.bank with
    | none => exact .inl rfl
    | some q =>
      obtain ⟨q1, q2⟩ := hc.2.2.1 q hb
      cases h2 : st.bankOff with
      | none => exact .inr ⟨q - 1, rfl, by omega, by omega⟩
      | some o =>
        obtain ⟨o1, o2⟩ := otherBank_bank c hc _ hs o h2
        simp only
        split
        · exact .inr ⟨o - 1, rfl, by omega, by omega⟩
        · exact .inr ⟨q - 1, rfl, by omega, by omega⟩
  refine ⟨c.slot st sh, (c.push st sh).2.1, _, ?_, ?_, rfl, ?_, by rw [hs']; simp⟩
  · show (Button.rigSelect c (c.push st sh).1, (c.push st sh).2.1, (c.push st sh).2.2) = _
    refine Prod.ext ?_ rfl
    show Button.rigSelect c _ = Button.rigSelect c _
    congr 1
    unfold RigSelect.push
    cases sh.preselectedBank <;> rfl
  · unfold RigSelect.push
    simp only [hs']
    cases sh.preselectedBank with
    | some b => exact .slot _ s0 s4
    | none =>
      simp only
      rcases hbank with hb | ⟨b, hb, b0, b1⟩
      · rw [hb]; exact .slot _ s0 s4
      · rw [hb]; exact .both _ _ b0 b1 s0 s4
  · unfold RigSelect.push
    cases h : sh.preselectedBank <;> simp

/-! ### Pressing a button of the panel -/

theorem report_twice (r : Int) (hr : 0 ≤ r) (seen : List Int) (c : Config) :
    ((btn seen c).report r).report r = (btn seen c).report r := by
  rw [report_btn r hr, report_btn r hr, btn_dup r (r :: seen) rfl]

theorem press_eq (cs : List Config) (s : Sys) (seen : List Int) (hb : s.buttons = cs.map (btn seen)) (i : Nat) (c : Config) (hi : cs[i]? = some c)
    (x : Option Int) (sh' : Shared) (ms : List CC) (hp : (btn seen c).push s.shared = (setSent x (btn seen c), sh', ms))
    (hx : ∀ k, c = .bankChange k → x = none) (t0 t1 : Int) (date : List Nat) (d1 d2 : Setup.Device)
    (h1 : (s.dev.run (ms.map fun m => .receive t0 date (bytes m))).1 = d1)
    (h2 : (d1.run ((x.toList.map fun s => rigSelect s 0).map fun m => .receive t1 date (bytes m))).1 = d2) (hr : d2.rigId = d1.rigId) :
    ∃ sh'', sh''.preselectedBank = sh'.preselectedBank ∧
      s.step (.press i t0 t1 date) = ⟨cs.map (btn ((d1.rigId : Int) :: seen)), sh'', d2⟩ := by
  have hr0 : (0 : Int) ≤ d1.rigId := by omega
  have e1 : s.act Button.push i t0 date = ⟨(s.buttons.set i (setSent x (btn seen c))).map (Button.report d1.rigId), sh', d1⟩ := by
    unfold Sys.act
    rw [hb, List.getElem?_map, hi]
    simp only [Option.map_some]
    rw [hp]
    simp only [Sys.deliver, h1]
  have e2 : (s.buttons.set i (setSent x (btn seen c))).map (Button.report d1.rigId) =
      (cs.map (btn ((d1.rigId : Int) :: seen))).set i (setSent x (btn ((d1.rigId : Int) :: seen) c)) := by
    rw [hb, List.map_set, List.map_map, report_set, report_btn _ hr0]
    congr 1
    apply List.map_congr_left
    intro k _
    exact report_btn _ hr0 _ _
  obtain ⟨sh'', e3, e4⟩ := release_set sh' x ((d1.rigId : Int) :: seen) c hx
  refine ⟨sh'', e4, ?_⟩
  have hlt : i < cs.length := (List.getElem?_eq_some_iff.1 hi).1
  show Sys.act _ _ _ _ _ = _
  rw [e1, e2]
  unfold Sys.act
  rw [List.getElem?_set_self (by simpa using hlt)]
  simp only
  rw [e3]
  simp only [Sys.deliver, h2, hr]
  congr 1
  rw [List.set_set, List.map_set, report_btn _ hr0, btn_dup _ _ rfl, List.map_map]
  have : List.map (Button.report ↑d1.rigId ∘ btn (↑d1.rigId :: seen)) cs = cs.map (btn ((d1.rigId : Int) :: seen)) := by
    apply List.map_congr_left
    intro k _
    show (btn _ k).report _ = _
    rw [report_btn _ hr0, btn_dup _ _ rfl]
  rw [this]
  apply List.ext_getElem?
  intro j
  by_cases hj : i = j
  · subst hj
    rw [List.getElem?_set_self (by simpa using hlt), List.getElem?_map, hi]
    rfl
  · rw [List.getElem?_set_ne hj]

/-! ### The invariant -/

structure Inv (cs : List Config) (s : Sys) (t : Spec.State) (p : Player) : Prop where
  view : Setup.View s.dev p
  rig : (p.rig : Int) = t.rig
  lt : p.rig < 625
  zero : ∀ i, p.button i = 0
  btns : s.buttons = cs.map (btn t.seen)
  head : ∃ l, t.seen = t.rig :: l
  seen : ∀ v ∈ t.seen, Rigs.Valid v
  shared : s.shared.preselectedBank = t.pending
  pend : ∀ b, t.pending = some b → 0 ≤ b ∧ b < 125 ∧ p.preselected.map Int.ofNat = some b
  here : t.pending = none → p.preselected.getD (p.rig / 5) = p.rig / 5
  free : t.preselected = false → p.preselected = none

theorem Inv.pendFree {cs : List Config} {s : Sys} {t : Spec.State} {p : Player} (h : Inv cs s t p) (hf : t.preselected = false) :
    t.pending = none := by
  cases hp : t.pending with
  | none => rfl
  | some b =>
    have := (h.pend b hp).2.2
    rw [h.free hf] at this
    simp at this

theorem Inv.valid {cs : List Config} {s : Sys} {t : Spec.State} {p : Player} (h : Inv cs s t p) : Rigs.Valid t.rig := by
  have := h.lt
  have := h.rig
  unfold Rigs.Valid
  omega

/-- A rig is selected with messages for a slot. -/
theorem Inv.goto {cs : List Config} {s : Sys} {t : Spec.State} {p : Player} (h : Inv cs s t p) (i : Nat) (c : Config) (hi : cs[i]? = some c)
    (hk : ∀ k, c ≠ .bankChange k) (x : Option Int) (sh' : Shared) (ms : List CC)
    (hp : (btn t.seen c).push s.shared = (setSent x (btn t.seen c), sh', ms)) (hs : Sends x ms) (r : Int) (hr : Rigs.Valid r)
    (hd : (docu p).receiveAll ms = ⟨r, none⟩) (hsh : sh'.preselectedBank = none) (t0 t1 : Int) (date : List Nat) :
    ∃ p', Inv cs (s.step (.press i t0 t1 date)) (t.goto r) p' := by
  obtain ⟨h1, h2, h3⟩ := told_docu hs p h.zero
  have v1 := told_view h.view ms hs.small.1 t0 date
  have v2 := told_view v1 _ hs.small.2 t1 date
  have r1 := v1.rig.id v1.shape
  have r2 := v2.rig.id v2.shape
  obtain ⟨sh'', hsh'', hstep⟩ := press_eq cs s t.seen h.btns i c hi x sh' ms hp (fun k e => absurd e (hk k)) t0 t1 date _ _ rfl rfl
    (by rw [r2, r1]; exact h1)
  rw [hd] at h2
  have hr2 : ((told (told p ms) (x.toList.map fun s => rigSelect s 0)).rig : Int) = r := congrArg Rigs.Device.current h2
  have hn2 : (told (told p ms) (x.toList.map fun s => rigSelect s 0)).preselected = none := by
    have := congrArg Rigs.Device.preselected h2
    simpa [docu] using this
  obtain ⟨q0, q1⟩ := hr
  rw [hstep]
  refine ⟨told (told p ms) (x.toList.map fun s => rigSelect s 0), v2, hr2, by omega, h3, ?_, ⟨t.seen, rfl⟩, ?_, ?_, ?_, ?_, fun _ => hn2⟩
  · simp only [Spec.State.goto]
    rw [r1, ← h1, hr2]
  · intro v hv
    rcases List.mem_cons.1 hv with rfl | hv
    · exact ⟨q0, q1⟩
    · exact h.seen v hv
  · simp only [Spec.State.goto]
    rw [hsh'', hsh]
  · intro b hb; simp [Spec.State.goto] at hb
  · intro _; rw [hn2]; rfl

/-- A bank is preselected. -/
theorem Inv.preselect {cs : List Config} {s : Sys} {t : Spec.State} {p : Player} (h : Inv cs s t p) (i : Nat) (c : Config) (hi : cs[i]? = some c)
    (sh' : Shared) (b : Int) (hp : (btn t.seen c).push s.shared = (setSent none (btn t.seen c), sh', [bankSelect b]))
    (hb0 : 0 ≤ b) (hb1 : b < 125) (o : Option Int) (ho : sh'.preselectedBank = o) (hob : o = some b ∨ (o = none ∧ bankOf t.rig = b))
    (t0 t1 : Int) (date : List Nat) :
    ∃ p', Inv cs (s.step (.press i t0 t1 date)) { t with pending := o, preselected := true } p' := by
  have hs : Sends none [bankSelect b] := .bank b hb0 hb1
  have v1 := told_view h.view _ hs.small.1 t0 date
  have r1 := v1.rig.id v1.shape
  obtain ⟨sh'', hsh'', hstep⟩ := press_eq cs s t.seen h.btns i c hi none sh' _ hp (fun _ _ => rfl) t0 t1 date _ _ rfl rfl rfl
  have hrig : ((told p [bankSelect b]).rig : Int) = t.rig := h.rig
  rw [hstep]
  obtain ⟨l, hl⟩ := h.head
  refine ⟨told p [bankSelect b], v1, hrig, h.lt, h.zero, ?_, ⟨l, hl⟩, h.seen, ?_, ?_, ?_, ?_⟩
  · simp only
    rw [r1, hrig]
    apply List.map_congr_left
    intro k _
    exact btn_dup _ _ (by rw [hl]; rfl) k
  · simp only
    rw [hsh'', ho]
  · intro b' hb'
    simp only at hb'
    rcases hob with e | ⟨e, -⟩
    · rw [e] at hb'
      cases hb'
      refine ⟨hb0, hb1, ?_⟩
      show some (b.toNat : Int) = some b
      rw [Int.toNat_of_nonneg hb0]
    · rw [e] at hb'; simp at hb'
  · intro hn
    simp only at hn
    rcases hob with e | ⟨-, e⟩
    · rw [e] at hn; simp at hn
    · show b.toNat = p.rig / 5
      have := h.rig
      unfold bankOf at e
      omega
  · intro hf; simp at hf

/-- Bank up and down, without preselection. -/
theorem Inv.plain {cs : List Config} {s : Sys} {t : Spec.State} {p : Player} (h : Inv cs s t p) (i : Nat) (c : BankChange)
    (hi : cs[i]? = some (.bankChange c)) (hc : c.preselect = false) (hn : c.number = 48 ∨ c.number = 49) (hf : t.preselected = false)
    (t0 t1 : Int) (date : List Nat) :
    ∃ p', Inv cs (s.step (.press i t0 t1 date)) (t.goto ((t.rig + if c.number = 48 then 5 else 620) % 625)) p' := by
  obtain ⟨sh', hp, hsh⟩ := push_bankPlain c hc t.seen s.shared
  have hsm : Small7 [⟨c.number, 0⟩] := by
    intro m hm
    simp only [List.mem_singleton] at hm
    subst hm
    rcases hn with e | e <;> rw [e] <;> decide
  have v1 := told_view h.view _ hsm t0 date
  have r1 := v1.rig.id v1.shape
  obtain ⟨sh'', hsh'', hstep⟩ := press_eq cs s t.seen h.btns i _ hi none sh' _ hp (fun _ _ => rfl) t0 t1 date _ _ rfl rfl rfl
  have htold : told p [⟨c.number, 0⟩] = { p with rig := (p.rig + if c.number = 48 then 5 else 620) % 625 } := by
    rcases hn with e | e <;> rw [e] <;> rfl
  have hr2 : ((told p [⟨c.number, 0⟩]).rig : Int) = (t.rig + if c.number = 48 then 5 else 620) % 625 := by
    rw [htold, ← h.rig]
    simp only
    split <;> omega
  have hpn : (told p [⟨c.number, 0⟩]).preselected = none := by rw [htold]; exact h.free hf
  rw [hstep]
  refine ⟨told p [⟨c.number, 0⟩], v1, hr2, ?_, ?_, ?_, ⟨t.seen, rfl⟩, ?_, ?_, ?_, ?_, fun _ => hpn⟩
  · rw [htold]; simp only; omega
  · rw [htold]; exact h.zero
  · simp only [Spec.State.goto]
    rw [r1, hr2]
  · intro v hv
    rcases List.mem_cons.1 hv with rfl | hv
    · unfold Rigs.Valid
      split <;> omega
    · exact h.seen v hv
  · simp only [Spec.State.goto]
    rw [hsh'', hsh, h.shared, h.pendFree hf]
  · intro b hb; simp [Spec.State.goto] at hb
  · intro _; rw [hpn]; rfl

theorem docu_free {p : Player} {r : Int} (h : (p.rig : Int) = r) (hn : p.preselected = none) : docu p = ⟨r, none⟩ := by
  unfold docu; rw [h, hn]; rfl

/-- The slots and banks meant are valid. -/
theorem mk_valid {b s : Int} (hb : 0 ≤ b ∧ b < 125) (hs : 0 ≤ s ∧ s ≤ 4) : Rigs.Valid (mkRig b s) := by
  unfold mkRig Rigs.Valid; omega

theorem meant_valid (c : RigSelect) (hc : Spec.Valid (.rigSelect c)) (r : Int) (hr : Rigs.Valid r) (seen : List Int)
    (hs : ∀ v ∈ seen, Rigs.Valid v) : Rigs.Valid (meantRig c.rig c.bank (otherRig c seen) (otherBank c seen) r) := by
  have hb : 0 ≤ (c.bank.map (· - 1)).getD (bankOf r) ∧ (c.bank.map (· - 1)).getD (bankOf r) < 125 := by
    obtain ⟨h1, h2⟩ := hr
    cases hb : c.bank with
    | none => simp only [Option.map_none, Option.getD_none, bankOf]; omega
    | some b => obtain ⟨b1, b2⟩ := hc.2.2.1 b hb; simp only [Option.map_some, Option.getD_some]; omega
  have hsl : 0 ≤ slotOf r ∧ slotOf r ≤ 4 := by unfold slotOf; omega
  unfold meantRig
  cases hq : c.rig with
  | none => exact mk_valid hb hsl
  | some q =>
    obtain ⟨q1, q2⟩ := hc.1 q hq
    simp only
    split
    · refine mk_valid ?_ ?_
      · cases hb' : c.bank with
        | none => obtain ⟨h1, h2⟩ := hr; simp only [bankOf]; omega
        | some b =>
          obtain ⟨b1, b2⟩ := hc.2.2.1 b hb'
          simp only
          cases ho : otherBank c seen with
          | none => simp only [Option.getD_none]; omega
          | some o => obtain ⟨o1, o2⟩ := otherBank_bank c hc seen hs o ho; simp only [Option.getD_some]; omega
      · cases ho : otherRig c seen with
        | none => simp only [Option.getD_none]; omega
        | some o => obtain ⟨o1, o2⟩ := otherRig_slot c hc seen o ho; simp only [Option.getD_some]; omega
    · exact mk_valid hb (by omega)

/-- Pressing a button. -/
theorem Inv.press {cs : List Config} {s : Sys} {t : Spec.State} {p : Player} (h : Inv cs s t p) (i : Nat) (c : Config) (hi : cs[i]? = some c)
    (hv : Spec.Valid c) (ha : t.preselected = true → Relative c = false) (t0 t1 : Int) (date : List Nat) :
    ∃ p', Inv cs (s.step (.press i t0 t1 date)) (t.press c) p' := by
  obtain ⟨l, hl⟩ := h.head
  have hval := h.valid
  cases c with
  | rigChange c =>
    have hf : t.preselected = false := by
      cases hf : t.preselected with
      | false => rfl
      | true => exact absurd (ha hf) (by simp [Relative])
    obtain ⟨x, sh', ms, hp, hs, hsh, hd⟩ := push_rigChange c t.rig hval l s.shared
    rw [← hl] at hp
    refine h.goto i _ hi (by simp) x sh' ms hp hs _ (Props.C43_valid _ _ _ hval) ?_ ?_ t0 t1 date
    · rw [docu_free h.rig (h.free hf)]; exact hd
    · rw [hsh, h.shared, h.pendFree hf]
  | bankChange c =>
    by_cases hc : c.preselect = true
    · have hn : 1 ≤ c.numBanks ∧ c.numBanks ≤ 125 := by simpa [Spec.Valid, hc] using hv
      obtain ⟨sh', hp, hsh, b0, b1⟩ := push_bankPreselect c hc hn t.rig hval l s.shared
      rw [← hl] at hp
      simp only [Spec.State.press, hc, if_true]
      rw [← h.shared]
      exact h.preselect i _ hi sh' _ hp b0 b1 _ hsh (.inl rfl) t0 t1 date
    · have hc : c.preselect = false := by simpa using hc
      have hf : t.preselected = false := by
        cases hf : t.preselected with
        | false => rfl
        | true => exact absurd (ha hf) (by simp [Relative, hc])
      have hn : c.number = 48 ∨ c.number = 49 := by simpa [Spec.Valid, hc] using hv
      simp only [Spec.State.press, hc, Bool.false_eq_true, if_false]
      exact h.plain i c hi hc hn hf t0 t1 date
  | bankSelect c =>
    obtain ⟨hb, ho⟩ : Bank c.bank ∧ ∀ o, c.bankOff = some o → Bank o := hv
    obtain ⟨x, sh', ms, hp, hs, hms, hsh, -⟩ := push_bankSelect c hb ho t.rig hval l s.shared
    rw [← hl] at hp
    by_cases hc : c.preselect = true
    · obtain ⟨-, e1, e2⟩ := Props.C47_preselect c hc ⟨some t.rig, none⟩ s.shared ⟨t.rig, none⟩ hval rfl
      have hmsg : (c.push ⟨some t.rig, none⟩ s.shared).2.2 = [bankSelect (c.bank - 1)] := by
        unfold BankSelect.push
        simp only [hc, Bool.not_true, Bool.false_eq_true, if_false]
        unfold BankSelect.bankMsg BankSelect.off
        rw [if_pos hc]
      have hx : x = none := by
        rw [hms, hmsg] at hs
        generalize hg : [bankSelect (c.bank - 1)] = g at hs
        cases hs with
        | nothing => rfl
        | bank => rfl
        | slot s s0 => simp [bankSelect, rigSelect] at hg; omega
        | both => simp at hg
      subst hx
      rw [hms, hmsg] at hp
      simp only [Spec.State.press, hc, if_true]
      rw [← hsh] at e2
      unfold Bank at hb
      refine h.preselect i _ hi sh' _ hp (by omega) (by omega) _ (e2.trans ?_) ?_ t0 t1 date
      · rw [h.shared]
        show (if t.pending ≠ none ∨ bankOf t.rig ≠ c.bank - 1 then _ else _) = _
        by_cases h1 : t.pending = none ∧ bankOf t.rig = c.bank - 1
        · rw [if_pos h1, if_neg (by simp [h1])]
        · rw [if_neg h1, if_pos (by by_cases h2 : t.pending = none <;> simp_all)]
      · by_cases h1 : t.pending = none ∧ bankOf t.rig = c.bank - 1
        · rw [if_pos h1]; exact .inr ⟨rfl, h1.2⟩
        · rw [if_neg h1]; exact .inl rfl
    · have hc : c.preselect = false := by simpa using hc
      obtain ⟨e1, e2⟩ := Props.C47_push c hc ⟨some t.rig, none⟩ s.shared (docu p) (by rw [show (docu p).current = t.rig from h.rig]; exact hval)
        (by rw [show (docu p).current = t.rig from h.rig])
      rw [show (docu p).current = t.rig from h.rig, ← hms] at e1
      rw [← hsh] at e2
      simp only [Spec.State.press, hc, Bool.false_eq_true, if_false]
      refine h.goto i _ hi (by simp) x sh' ms hp hs _ ?_ e1 e2 t0 t1 date
      have hsl : 0 ≤ slotOf t.rig ∧ slotOf t.rig ≤ 4 := by unfold slotOf; omega
      refine mk_valid ?_ hsl
      unfold Bank at hb ho
      split
      · cases ho' : c.bankOff with
        | none => simp only [Option.getD_none]; omega
        | some o => have := ho o ho'; simp only [Option.getD_some]; omega
      · omega
  | rigSelect c =>
    have hseen := h.seen
    rw [hl] at hseen
    obtain ⟨x, sh', ms, hp, hs, hms, hsh, -⟩ := push_rigSelect c hv t.rig l hseen s.shared
    have hok : Props.SlotsOk c ⟨some t.rig, none, some t.rig, otherRig c (t.rig :: l), otherBank c (t.rig :: l)⟩ :=
      ⟨hv.1, otherRig_slot c hv _⟩
    rw [← hl] at hp
    cases hpend : t.pending with
    | none =>
      have e := Props.C46_push c ⟨some t.rig, none, some t.rig, otherRig c (t.rig :: l), otherBank c (t.rig :: l)⟩ s.shared (docu p) hok
        (by rw [show (docu p).current = t.rig from h.rig]; exact hval) (by rw [show (docu p).current = t.rig from h.rig])
        (by rw [h.shared]; exact hpend)
        (by
          have h1 := h.here hpend
          show (p.preselected.map Int.ofNat).getD (bankOf (p.rig : Int)) = bankOf (p.rig : Int)
          cases h2 : p.preselected with
          | none => rfl
          | some b =>
            rw [h2] at h1
            simp only [Option.getD_some] at h1
            simp only [Option.map_some, Option.getD_some, bankOf]
            show (b : Int) = _
            omega)
      rw [show (docu p).current = t.rig from h.rig, ← hms] at e
      simp only [Spec.State.press, hpend]
      rw [hl]
      exact h.goto i _ hi (by simp) x sh' ms hp hs _ (meant_valid c hv t.rig hval _ hseen) e hsh t0 t1 date
    | some b =>
      obtain ⟨b0, b1, b2⟩ := h.pend b hpend
      obtain ⟨e, -⟩ := Props.C46_preselected c ⟨some t.rig, none, some t.rig, otherRig c (t.rig :: l), otherBank c (t.rig :: l)⟩ s.shared (docu p) hok
        (by rw [show (docu p).current = t.rig from h.rig]) b (by rw [h.shared]; exact hpend) (by
          show (p.preselected.map Int.ofNat).getD _ = _
          rw [b2]; rfl)
      rw [show (docu p).current = t.rig from h.rig, ← hms] at e
      simp only [Spec.State.press, hpend]
      refine h.goto i _ hi (by simp) x sh' ms hp hs _ (mk_valid ⟨b0, b1⟩ ?_) e hsh t0 t1 date
      cases hq : c.rig with
      | none => simp only [Option.map_none, Option.getD_none, slotOf]; omega
      | some q => obtain ⟨q1, q2⟩ := hv.1 q hq; simp only [Option.map_some, Option.getD_some]; omega

theorem Inv.device {cs : List Config} {s : Sys} {t : Spec.State} {p : Player} (h : Inv cs s t p) (n : Nat) (hn : n < 625)
    (hf : t.preselected = false) (date : List Nat) :
    ∃ p', Inv cs (s.step (.device n date)) { t with rig := n, seen := n :: t.seen } p' := by
  have v := (Setup.any_step h.view (e := .ui date (.rig n)) trivial).1
  have r := v.rig.id v.shape
  refine ⟨_, v, rfl, hn, h.zero, ?_, ⟨_, rfl⟩, ?_, h.shared, h.pend, ?_, h.free⟩
  · show s.buttons.map (Button.report ((s.dev.step (.ui date (.rig n))).1.rigId)) = _
    rw [r, h.btns, List.map_map]
    apply List.map_congr_left
    intro k _
    exact report_btn _ (by omega) _ _
  · intro w hw
    rcases List.mem_cons.1 hw with rfl | hw
    · unfold Rigs.Valid; omega
    · exact h.seen w hw
  · intro _
    show p.preselected.getD _ = _
    rw [h.free hf]; rfl

theorem Inv.run {cs : List Config} (hv : ∀ c ∈ cs, Spec.Valid c) (es : List Ev) {s : Sys} {t : Spec.State} {p : Player} (h : Inv cs s t p)
    (ha : Allowed cs t es) : ∃ p', Inv cs (s.run es) (t.presses cs es) p' := by
  induction es generalizing s t p with
  | nil => exact ⟨p, h⟩
  | cons e es ih =>
    cases e with
    | press i t0 t1 date =>
      cases hi : cs[i]? with
      | none =>
        simp only [Allowed, hi] at ha
        have hstep : s.step (.press i t0 t1 date) = s := by
          have : s.buttons[i]? = none := by rw [h.btns, List.getElem?_map, hi]; rfl
          simp only [Sys.step, Sys.act, this]
        simp only [Spec.State.presses, hi]
        show ∃ p', Inv cs ((s.step _).run es) _ p'
        rw [hstep]
        exact ih h ha
      | some c =>
        simp only [Allowed, hi] at ha
        obtain ⟨p', h'⟩ := h.press i c hi (hv c (List.mem_of_getElem? hi)) ha.1 t0 t1 date
        simp only [Spec.State.presses, hi]
        exact ih h' ha.2
    | update now =>
      exact ih (s := s.step (.update now)) ⟨(Setup.any_step h.view (e := .update now) trivial).1, h.rig, h.lt, h.zero, h.btns, h.head, h.seen,
        h.shared, h.pend, h.here, h.free⟩ ha
    | device n date =>
      obtain ⟨h1, h2, h3⟩ := ha
      obtain ⟨p', h'⟩ := h.device n h1 h2 date
      exact ih h' h3

theorem created_btn (cs : List Config) (bs : List Button) (hc : cs.mapM Config.create = some bs) (r : Int) (hr : 0 ≤ r) :
    bs.map (Button.report r) = cs.map (btn [r]) := by
  induction cs generalizing bs with
  | nil => simp at hc; subst hc; rfl
  | cons c cs ih =>
    rw [List.mapM_cons] at hc
    cases h1 : c.create with
    | none => rw [h1] at hc; simp at hc
    | some b =>
      rw [h1] at hc
      cases h2 : cs.mapM Config.create with
      | none => rw [h2] at hc; simp at hc
      | some bs' =>
        rw [h2] at hc
        simp at hc
        subst hc
        rw [List.map_cons, List.map_cons, ih bs' h2]
        congr 1
        cases c with
        | rigSelect c =>
          simp only [Config.create, Option.map_eq_some_iff] at h1
          obtain ⟨st, h1, rfl⟩ := h1
          unfold RigSelect.init at h1
          simp only at h1
          split at h1
          · simp at h1
          · simp only [Option.some.injEq] at h1
            subst h1
            have e := update_eq c r hr [] none (some (-1)) (by intro e; simp only [Option.some.injEq] at e; omega)
            have o1 : otherRig c [] = if c.rigOffAuto then some 1 else c.rigOff := by
              unfold otherRig; cases c.rig <;> rfl
            have o2 : otherBank c [] = if c.bankOffAuto then some 1 else c.bankOff := by
              unfold otherBank; cases c.bank <;> rfl
            rw [o1, o2] at e
            show Button.rigSelect c (c.updateDisplays _) = _
            rw [e]
            rfl
        | _ => simp only [Config.create, Option.some.injEq] at h1; subst h1; rfl

end PySwitch.RigButtons
