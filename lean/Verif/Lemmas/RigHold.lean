import Verif.Lemmas.RigButtons

/-!
For C163: held buttons.
-/

namespace PySwitch.RigButtons
open PySwitch.Rigs PySwitch.RigButtons.Spec PySwitch.Kemper PySwitch.Kemper.Setup.Spec

theorem setSent_none (seen : List Int) (c : Config) : setSent none (btn seen c) = btn seen c := by cases c <;> rfl

/-- Pushing a button while nothing is preselected and no other button with this slot is held. -/
theorem told_push {x : Option Int} {ms : List CC} (h : Sends x ms) (p : Player) (hz : ∀ s, x = some s → p.button s.toNat = 0) :
    docu (told p ms) = (docu p).receiveAll ms ∧ ∀ i, (told p ms).button i = if x = some (i : Int) then 1 else p.button i := by
  have hpress : ∀ (p : Player) (s : Int), 0 ≤ s → s ≤ 4 → p.button s.toNat = 0 →
      docu (p.press s.toNat 1) = (docu p).receive (rigSelect s 1) ∧
      ∀ i : Nat, (p.press s.toNat 1).button i = if (some s : Option Int) = some (i : Int) then 1 else p.button i := by
    intro p s h0 h1 hz
    have h1' : p.press s.toNat 1 = ⟨5 * p.preselected.getD (p.rig / 5) + s.toNat, none, fun i => if i = s.toNat then 1 else p.button i⟩ := by
      unfold Player.press
      rw [if_neg (by omega)]
      rfl
    rw [h1', receive_select ⟨h0, h1⟩]
    constructor
    · simp only [docu, mkRig, bankOf, Option.map_none, Device.mk.injEq, and_true]
      cases p.preselected <;> simp <;> omega
    · intro i
      simp only [Option.some.injEq]
      by_cases hi : i = s.toNat
      · rw [if_pos hi, if_pos (by omega)]
      · rw [if_neg hi, if_neg (by omega)]
  cases h with
  | nothing => exact ⟨rfl, fun i => rfl⟩
  | bank b h0 h1 =>
    refine ⟨?_, fun i => rfl⟩
    show docu (p.message (bytes (bankSelect b))) = (docu p).receive (bankSelect b)
    rw [told_bank, Rigs.receive_bank]
    simp only [docu, Option.map_some, Device.mk.injEq, true_and, Option.some.injEq]
    show (b.toNat : Int) = b
    omega
  | slot s h0 h1 =>
    show docu (p.message (bytes (rigSelect s 1))) = (docu p).receive (rigSelect s 1) ∧
      ∀ i, (p.message (bytes (rigSelect s 1))).button i = _
    rw [told_slot _ s h0 h1]
    exact hpress p s h0 h1 (hz s rfl)
  | both b s hb0 hb1 h0 h1 =>
    show docu ((p.message (bytes (bankSelect b))).message (bytes (rigSelect s 1))) = ((docu p).receive (bankSelect b)).receive (rigSelect s 1) ∧
      ∀ i, ((p.message (bytes (bankSelect b))).message (bytes (rigSelect s 1))).button i = _
    rw [told_bank, told_slot _ s h0 h1]
    obtain ⟨e1, e2⟩ := hpress { p with preselected := some b.toNat } s h0 h1 (hz s rfl)
    refine ⟨?_, e2⟩
    show docu (Player.press { p with preselected := some b.toNat } s.toNat 1) = _
    rw [e1, Rigs.receive_bank]
    congr 1
    simp only [docu, Option.map_some, Device.mk.injEq, true_and, Option.some.injEq]
    show (b.toNat : Int) = b
    omega

/-- The slot which is sent. -/
theorem Sends.slot_of {x : Option Int} {ms : List CC} (h : Sends x ms) (d : Rigs.Device) (r : Int) (hd : d.receiveAll ms = ⟨r, none⟩) :
    (∀ s, x = some s → slotOf r = s ∧ 0 ≤ s ∧ s ≤ 4) ∧ (x = none → r = d.current) := by
  have hc := congrArg Rigs.Device.current hd
  simp only at hc
  cases h with
  | nothing => exact ⟨by simp, fun _ => hc.symm⟩
  | bank b h0 h1 => exact ⟨by simp, fun _ => hc.symm⟩
  | slot s h0 h1 =>
    refine ⟨?_, by simp⟩
    intro s' hs
    cases hs
    have : r = mkRig (d.preselected.getD (bankOf d.current)) s := by
      rw [← hc]
      show (d.receive (rigSelect s 1)).current = _
      rw [receive_select ⟨h0, h1⟩]
    rw [this]
    unfold slotOf mkRig
    omega
  | both b s hb0 hb1 h0 h1 =>
    refine ⟨?_, by simp⟩
    intro s' hs
    cases hs
    have : r = mkRig b s := by
      rw [← hc]
      show ((d.receive (bankSelect b)).receive (rigSelect s 1)).current = _
      rw [receive_select ⟨h0, h1⟩, Rigs.receive_bank]
      rfl
    rw [this]
    unfold slotOf mkRig
    omega

/-- Releasing a button. -/
theorem told_release (x : Option Int) (p : Player) (hx : ∀ s, x = some s → 0 ≤ s ∧ s ≤ 4 ∧ p.button s.toNat = 1) (hp : p.preselected = none) :
    (told p (x.toList.map fun s => rigSelect s 0)).rig = p.rig ∧ (told p (x.toList.map fun s => rigSelect s 0)).preselected = none ∧
    ∀ i, (told p (x.toList.map fun s => rigSelect s 0)).button i = if x = some (i : Int) then 0 else p.button i := by
  cases x with
  | none => exact ⟨rfl, hp, fun i => rfl⟩
  | some s =>
    obtain ⟨h0, h1, h2⟩ := hx s rfl
    have h : told p ((some s).toList.map fun s => rigSelect s 0) =
        ⟨p.rig, none, fun i => if i = s.toNat then 0 else p.button i⟩ := by
      show p.message (bytes (rigSelect s 0)) = _
      rw [told_slot _ s h0 h1]
      unfold Player.press
      rw [if_neg (by omega)]
      rfl
    rw [h]
    refine ⟨rfl, rfl, ?_⟩
    intro i
    simp only [Option.some.injEq]
    by_cases hi : i = s.toNat
    · rw [if_pos hi, if_pos (by omega)]
    · rw [if_neg hi, if_neg (by omega)]

structure HoldInv (cs : List Config) (s : Sys) (h : Hold) (p : Player) : Prop where
  view : Setup.View s.dev p
  rig : (p.rig : Int) = h.st.rig
  lt : p.rig < 625
  len : s.buttons.length = cs.length
  btns : ∀ (j : Nat) (c : Config), cs[j]? = some c → s.buttons[j]? = some (setSent (h.held j).join (btn h.st.seen c))
  head : ∃ l, h.st.seen = h.st.rig :: l
  seen : ∀ v ∈ h.st.seen, Rigs.Valid v
  shared : s.shared.preselectedBank = none
  pend : h.st.pending = none
  free : p.preselected = none
  down : ∀ j s, h.held j = some (some s) → 0 ≤ s ∧ s ≤ 4 ∧ p.button s.toNat = 1
  up : ∀ k : Nat, (∀ j, h.held j ≠ some (some (k : Int))) → p.button k = 0
  inj : ∀ j j' s, h.held j = some (some s) → h.held j' = some (some s) → j = j'
  bank : ∀ j k, cs[j]? = some (.bankChange k) → (h.held j).join = none
  absent : ∀ j, cs[j]? = none → h.held j = none

theorem HoldInv.valid {cs : List Config} {s : Sys} {h : Hold} {p : Player} (hi : HoldInv cs s h p) : Rigs.Valid h.st.rig := by
  have := hi.lt
  have := hi.rig
  unfold Rigs.Valid
  omega

theorem reported {cs : List Config} {bs : List Button} {held : Nat → Option (Option Int)} {seen : List Int} (len : bs.length = cs.length)
    (btns : ∀ (j : Nat) (c : Config), cs[j]? = some c → bs[j]? = some (setSent (held j).join (btn seen c))) (r : Int) (hr : 0 ≤ r) :
    (bs.map (Button.report r)).length = cs.length ∧
    ∀ (j : Nat) (c : Config), cs[j]? = some c → (bs.map (Button.report r))[j]? = some (setSent (held j).join (btn (r :: seen) c)) := by
  refine ⟨by rw [List.length_map, len], ?_⟩
  intro j c hj
  rw [List.getElem?_map, btns j c hj, Option.map_some, report_set, report_btn r hr]

/-- A button is pushed which selects a rig. -/
theorem HoldInv.goto {cs : List Config} {s : Sys} {h : Hold} {p : Player} (hi : HoldInv cs s h p) (i : Nat) (c : Config) (hc : cs[i]? = some c)
    (hk : ∀ k, c ≠ .bankChange k) (hup : h.held i = none) (x : Option Int) (hfree : ∀ j s, h.held j = some (some s) → x ≠ some s)
    (sh' : Shared) (ms : List CC)
    (hp : (btn h.st.seen c).push s.shared = (setSent x (btn h.st.seen c), sh', ms)) (hs : Sends x ms) (r : Int) (hr : Rigs.Valid r)
    (hd : (docu p).receiveAll ms = ⟨r, none⟩) (hsh : sh'.preselectedBank = none) (now : Int) (date : List Nat) :
    ∃ p', HoldInv cs (s.holdStep (.push i now date)) ⟨h.st.goto r, fun j => if j = i then some x else h.held j⟩ p' := by
  obtain ⟨h1, h2⟩ := told_push hs p (by
    intro q hq
    have hq4 := (hs.slot_of _ r hd).1 q hq
    refine hi.up _ fun j hj => hfree j _ hj ?_
    rw [hq]
    congr 1
    omega)
  have hx4 := fun q hq => (hs.slot_of _ r hd).1 q hq
  have v1 := told_view hi.view ms hs.small.1 now date
  have r1 := v1.rig.id v1.shape
  rw [hd] at h1
  have hr1 : ((told p ms).rig : Int) = r := congrArg Rigs.Device.current h1
  have hn1 : (told p ms).preselected = none := by
    have := congrArg Rigs.Device.preselected h1
    simpa [docu] using this
  have hb := hi.btns i c hc
  rw [hup] at hb
  simp only [Option.join_none, setSent_none] at hb
  have hstep : s.holdStep (.push i now date) =
      ⟨(s.buttons.set i (setSent x (btn h.st.seen c))).map (Button.report r), sh', (s.dev.run (ms.map fun m => .receive now date (bytes m))).1⟩ := by
    show s.act Button.push i now date = _
    unfold Sys.act
    rw [hb]
    simp only
    rw [hp]
    simp only [Sys.deliver]
    rw [r1, hr1]
  obtain ⟨q0, q1⟩ := hr
  obtain ⟨b1, b2⟩ := reported (cs := cs) (bs := s.buttons.set i (setSent x (btn h.st.seen c))) (held := fun j => if j = i then some x else h.held j)
    (seen := h.st.seen) (by rw [List.length_set, hi.len]) (by
      intro j c' hj
      by_cases hji : j = i
      · subst hji
        rw [hc] at hj
        cases hj
        rw [List.getElem?_set_self (by rw [hi.len]; exact (List.getElem?_eq_some_iff.1 hc).1)]
        simp
      · rw [List.getElem?_set_ne (by omega), hi.btns j c' hj, if_neg hji]) r q0
  rw [hstep]
  refine ⟨told p ms, v1, hr1, by omega, b1, b2, ⟨_, rfl⟩, ?_, hsh, rfl, hn1, ?_, ?_, ?_, ?_, ?_⟩
  · intro v hv
    rcases List.mem_cons.1 hv with rfl | hv
    · exact ⟨q0, q1⟩
    · exact hi.seen v hv
  · intro j q hq
    simp only at hq
    by_cases hji : j = i
    · rw [if_pos hji] at hq
      simp only [Option.some.injEq] at hq
      obtain ⟨-, e1, e2⟩ := hx4 q hq
      refine ⟨e1, e2, ?_⟩
      rw [h2, if_pos (by rw [hq]; congr 1; omega)]
    · rw [if_neg hji] at hq
      obtain ⟨e1, e2, e3⟩ := hi.down j q hq
      refine ⟨e1, e2, ?_⟩
      rw [h2]
      split
      · rfl
      · exact e3
  · intro k hk'
    rw [h2]
    have h0 := hk' i
    simp only [if_true] at h0
    rw [if_neg (fun e => h0 (by rw [e]))]
    apply hi.up
    intro j hj
    by_cases hji : j = i
    · subst hji; rw [hup] at hj; simp at hj
    · have := hk' j
      simp only [if_neg hji] at this
      exact this hj
  · intro j j' q hj hj'
    simp only at hj hj'
    by_cases h1 : j = i <;> by_cases h2 : j' = i
    · rw [h1, h2]
    · rw [if_pos h1] at hj
      rw [if_neg h2] at hj'
      simp only [Option.some.injEq] at hj
      exact absurd hj (hfree j' q hj')
    · rw [if_neg h1] at hj
      rw [if_pos h2] at hj'
      simp only [Option.some.injEq] at hj'
      exact absurd hj' (hfree j q hj)
    · rw [if_neg h1] at hj
      rw [if_neg h2] at hj'
      exact hi.inj j j' q hj hj'
  · intro j k hj
    simp only
    by_cases hji : j = i
    · subst hji; rw [hc] at hj; cases hj; exact absurd rfl (hk k)
    · rw [if_neg hji]; exact hi.bank j k hj
  · intro j hj
    simp only
    rw [if_neg (fun e => by rw [e, hc] at hj; simp at hj)]
    exact hi.absent j hj

/-- Bank up and down. -/
theorem HoldInv.plain {cs : List Config} {s : Sys} {h : Hold} {p : Player} (hi : HoldInv cs s h p) (i : Nat) (c : BankChange)
    (hc : cs[i]? = some (.bankChange c)) (hcp : c.preselect = false) (hn : c.number = 48 ∨ c.number = 49) (hup : h.held i = none)
    (now : Int) (date : List Nat) :
    ∃ p', HoldInv cs (s.holdStep (.push i now date))
      ⟨h.st.goto ((h.st.rig + if c.number = 48 then 5 else 620) % 625), fun j => if j = i then some none else h.held j⟩ p' := by
  obtain ⟨sh', hp, hsh⟩ := push_bankPlain c hcp h.st.seen s.shared
  have hsm : Small7 [⟨c.number, 0⟩] := by
    intro m hm
    simp only [List.mem_singleton] at hm
    subst hm
    rcases hn with e | e <;> rw [e] <;> decide
  have v1 := told_view hi.view _ hsm now date
  have r1 := v1.rig.id v1.shape
  have htold : told p [⟨c.number, 0⟩] = { p with rig := (p.rig + if c.number = 48 then 5 else 620) % 625 } := by
    rcases hn with e | e <;> rw [e] <;> rfl
  have hr2 : ((told p [⟨c.number, 0⟩]).rig : Int) = (h.st.rig + if c.number = 48 then 5 else 620) % 625 := by
    rw [htold, ← hi.rig]
    simp only
    split <;> omega
  have hb := hi.btns i _ hc
  rw [hup] at hb
  simp only [Option.join_none, setSent_none] at hb
  have hset : s.buttons.set i (btn h.st.seen (.bankChange c)) = s.buttons := by
    apply List.ext_getElem?
    intro j
    by_cases hj : i = j
    · subst hj
      rw [List.getElem?_set_self (List.getElem?_eq_some_iff.1 hb).1, hb]
    · rw [List.getElem?_set_ne hj]
  have hstep : s.holdStep (.push i now date) =
      ⟨s.buttons.map (Button.report ((h.st.rig + if c.number = 48 then 5 else 620) % 625)), sh',
        (s.dev.run (([⟨c.number, 0⟩] : List CC).map fun m => .receive now date (bytes m))).1⟩ := by
    show s.act Button.push i now date = _
    unfold Sys.act
    rw [hb]
    simp only
    rw [hp, setSent_none, hset]
    simp only [Sys.deliver]
    rw [r1, hr2]
  obtain ⟨b1, b2⟩ := reported (cs := cs) (bs := s.buttons) (held := fun j => if j = i then some none else h.held j)
    (seen := h.st.seen) hi.len (by
      intro j c' hj
      rw [hi.btns j c' hj]
      by_cases hji : j = i
      · subst hji
        rw [hup]; simp
      · rw [if_neg hji]) ((h.st.rig + if c.number = 48 then 5 else 620) % 625) (by split <;> omega)
  rw [hstep]
  have hbut : (told p [⟨c.number, 0⟩]).button = p.button := by rw [htold]
  refine ⟨told p [⟨c.number, 0⟩], v1, hr2, ?_, b1, b2, ⟨_, rfl⟩, ?_, ?_, rfl, ?_, ?_, ?_, ?_, ?_, ?_⟩
  · rw [htold]; simp only; omega
  · intro v hv
    rcases List.mem_cons.1 hv with rfl | hv
    · unfold Rigs.Valid
      split <;> omega
    · exact hi.seen v hv
  · simp only; rw [hsh, hi.shared]
  · rw [htold]; exact hi.free
  · intro j q hq
    rw [hbut]
    simp only at hq
    by_cases hji : j = i
    · rw [if_pos hji] at hq; simp at hq
    · rw [if_neg hji] at hq; exact hi.down j q hq
  · intro k hk
    rw [hbut]
    apply hi.up
    intro j hj
    by_cases hji : j = i
    · subst hji; rw [hup] at hj; simp at hj
    · have := hk j
      simp only [if_neg hji] at this
      exact this hj
  · intro j j' q hj hj'
    simp only at hj hj'
    by_cases h1 : j = i
    · rw [if_pos h1] at hj; simp at hj
    · by_cases h2 : j' = i
      · rw [if_pos h2] at hj'; simp at hj'
      · rw [if_neg h1] at hj
        rw [if_neg h2] at hj'
        exact hi.inj j j' q hj hj'
  · intro j k hj
    simp only
    by_cases hji : j = i
    · rw [if_pos hji]; rfl
    · rw [if_neg hji]; exact hi.bank j k hj
  · intro j hj
    simp only
    rw [if_neg (fun e => by rw [e, hc] at hj; simp at hj)]
    exact hi.absent j hj

/-- Pushing a button. -/
theorem HoldInv.push {cs : List Config} {s : Sys} {h : Hold} {p : Player} (hi : HoldInv cs s h p) (i : Nat) (c : Config) (hc : cs[i]? = some c)
    (hv : Spec.Valid c) (hn : Preselects c = false) (hup : h.held i = none)
    (hfree : ∀ j s, h.held j = some (some s) → h.st.slotFor c ≠ some s) (now : Int) (date : List Nat) :
    ∃ p', HoldInv cs (s.holdStep (.push i now date)) ⟨h.st.press c, fun j => if j = i then some (h.st.slotFor c) else h.held j⟩ p' := by
  obtain ⟨l, hl⟩ := hi.head
  have hval := hi.valid
  have hdoc : docu p = ⟨h.st.rig, none⟩ := docu_free hi.rig hi.free
  cases c with
  | rigChange c =>
    obtain ⟨x, sh', ms, hp, hs, hsh, hd⟩ := push_rigChange c h.st.rig hval l s.shared
    have hx : x = h.st.slotFor (.rigChange c) := by
      obtain ⟨e1, e2⟩ := hs.slot_of _ _ hd
      simp only [Spec.State.slotFor]
      cases x with
      | none => rw [if_pos (e2 rfl)]
      | some q =>
        obtain ⟨e3, e4, -⟩ := e1 q rfl
        rw [if_neg, e3]
        intro he
        have hm := (Props.C44_push_partial c ⟨some h.st.rig, none⟩ s.shared ⟨h.st.rig, none⟩ hval rfl rfl).1
        rw [if_pos he] at hm
        have hms : ms = (c.push ⟨some h.st.rig, none⟩ s.shared).2.2 := by
          have := congrArg (fun r => r.2.2) hp
          exact this.symm
        rw [hm] at hms
        subst hms
        cases hs
    rw [← hl] at hp
    rw [← hx]
    refine hi.goto i _ hc (by simp) hup x (by rw [hx]; exact hfree) sh' ms hp hs _ (Props.C43_valid _ _ _ hval) ?_ ?_ now date
    · rw [hdoc]; exact hd
    · rw [hsh, hi.shared]
  | bankChange c =>
    have hcp : c.preselect = false := hn
    have hnum : c.number = 48 ∨ c.number = 49 := by simpa [Spec.Valid, hcp] using hv
    simp only [Spec.State.press, hcp, Bool.false_eq_true, if_false, Spec.State.slotFor]
    exact hi.plain i c hc hcp hnum hup now date
  | bankSelect c =>
    have hcp : c.preselect = false := hn
    obtain ⟨hb, ho⟩ : Bank c.bank ∧ ∀ o, c.bankOff = some o → Bank o := hv
    obtain ⟨x, sh', ms, hp, hs, hms, hsh, hxn⟩ := push_bankSelect c hb ho h.st.rig hval l s.shared
    rw [← hl] at hp
    obtain ⟨e1, e2⟩ := Props.C47_push c hcp ⟨some h.st.rig, none⟩ s.shared (docu p) (by rw [hdoc]; exact hval) (by rw [hdoc])
    rw [show (docu p).current = h.st.rig from hi.rig, ← hms] at e1
    rw [← hsh] at e2
    have hx : x = h.st.slotFor (.bankSelect c) := by
      cases x with
      | none => exact absurd rfl (hxn hcp)
      | some q =>
        obtain ⟨e3, -, -⟩ := (hs.slot_of _ _ e1).1 q rfl
        simp only [Spec.State.slotFor, Spec.State.press, hcp, Bool.false_eq_true, if_false, Spec.State.goto]
        rw [← e3]
    rw [← hx]
    simp only [Spec.State.press, hcp, Bool.false_eq_true, if_false]
    refine hi.goto i _ hc (by simp) hup x (by rw [hx]; exact hfree) sh' ms hp hs _ ?_ e1 e2 now date
    have hsl : 0 ≤ slotOf h.st.rig ∧ slotOf h.st.rig ≤ 4 := by unfold slotOf; omega
    refine mk_valid ?_ hsl
    unfold Bank at hb ho
    split
    · cases ho' : c.bankOff with
      | none => simp only [Option.getD_none]; omega
      | some o => have := ho o ho'; simp only [Option.getD_some]; omega
    · omega
  | rigSelect c =>
    have hseen := hi.seen
    rw [hl] at hseen
    obtain ⟨x, sh', ms, hp, hs, hms, hsh, hxn⟩ := push_rigSelect c hv h.st.rig l hseen s.shared
    have hok : Props.SlotsOk c ⟨some h.st.rig, none, some h.st.rig, otherRig c (h.st.rig :: l), otherBank c (h.st.rig :: l)⟩ :=
      ⟨hv.1, otherRig_slot c hv _⟩
    rw [← hl] at hp
    have e := Props.C46_push c ⟨some h.st.rig, none, some h.st.rig, otherRig c (h.st.rig :: l), otherBank c (h.st.rig :: l)⟩ s.shared (docu p) hok
      (by rw [hdoc]; exact hval) (by rw [hdoc]) hi.shared (by rw [hdoc]; rfl)
    rw [show (docu p).current = h.st.rig from hi.rig, ← hms] at e
    have hpress : h.st.press (.rigSelect c) =
        h.st.goto (meantRig c.rig c.bank (otherRig c (h.st.rig :: l)) (otherBank c (h.st.rig :: l)) h.st.rig) := by
      simp only [Spec.State.press, hi.pend, hl]
    have hx : x = h.st.slotFor (.rigSelect c) := by
      cases x with
      | none => exact absurd rfl hxn
      | some q =>
        obtain ⟨e3, -, -⟩ := (hs.slot_of _ _ e).1 q rfl
        simp only [Spec.State.slotFor, hpress, Spec.State.goto]
        rw [← e3]
    rw [← hx, hpress]
    exact hi.goto i _ hc (by simp) hup x (by rw [hx]; exact hfree) sh' ms hp hs _ (meant_valid c hv h.st.rig hval _ hseen) e hsh now date

/-- Releasing a button. -/
theorem HoldInv.release {cs : List Config} {s : Sys} {h : Hold} {p : Player} (hi : HoldInv cs s h p) (i : Nat) (now : Int) (date : List Nat) :
    ∃ p', HoldInv cs (s.holdStep (.release i now date)) ⟨h.st, fun j => if j = i then none else h.held j⟩ p' := by
  obtain ⟨l, hl⟩ := hi.head
  cases hc : cs[i]? with
  | none =>
    have hnone : s.buttons[i]? = none := by
      rw [List.getElem?_eq_none_iff] at hc ⊢
      rw [hi.len]; exact hc
    have hstep : s.holdStep (.release i now date) = s := by
      simp only [Sys.holdStep, Sys.act, hnone]
    rw [hstep]
    have hsame : (fun j => if j = i then none else h.held j) = h.held := by
      funext j
      split
      · next e => rw [e, hi.absent i hc]
      · rfl
    rw [hsame]
    exact ⟨p, hi⟩
  | some c =>
    have hb := hi.btns i c hc
    have hilt : i < s.buttons.length := (List.getElem?_eq_some_iff.1 hb).1
    obtain ⟨sh', hrel, hsh⟩ := release_set s.shared (h.held i).join h.st.seen c (by intro k hk; subst hk; exact hi.bank i k hc)
    have hq : ∀ q, (h.held i).join = some q → h.held i = some (some q) := by
      intro q hq
      cases hh : h.held i with
      | none => rw [hh] at hq; simp at hq
      | some y => rw [hh] at hq; simp only [Option.join_some] at hq; rw [hq]
    obtain ⟨e1, e2, e3⟩ := told_release (h.held i).join p (fun q hq' => hi.down i q (hq q hq')) hi.free
    have v1 := told_view hi.view ((h.held i).join.toList.map fun s => rigSelect s 0) (by
      intro m hm
      obtain ⟨q, hq1, rfl⟩ := List.mem_map.1 hm
      obtain ⟨a0, a1, -⟩ := hi.down i q (hq q (by simpa using hq1))
      simp only [rigSelect]
      omega) now date
    have r1 := v1.rig.id v1.shape
    have hstep : s.holdStep (.release i now date) =
        ⟨(s.buttons.set i (btn h.st.seen c)).map (Button.report h.st.rig), sh',
          (s.dev.run (((h.held i).join.toList.map fun s => rigSelect s 0).map fun m => .receive now date (bytes m))).1⟩ := by
      show s.act Button.release i now date = _
      unfold Sys.act
      rw [hb]
      simp only
      rw [hrel]
      simp only [Sys.deliver]
      rw [r1, e1, hi.rig]
    obtain ⟨b1, b2⟩ := reported (cs := cs) (bs := s.buttons.set i (btn h.st.seen c)) (held := fun j => if j = i then none else h.held j)
      (seen := h.st.seen) (by rw [List.length_set, hi.len]) (by
        intro j c' hj
        by_cases hji : j = i
        · subst hji
          rw [hc] at hj
          cases hj
          rw [List.getElem?_set_self hilt]
          simp [setSent_none]
        · rw [List.getElem?_set_ne (by omega), hi.btns j c' hj, if_neg hji]) h.st.rig hi.valid.1
    rw [hstep]
    refine ⟨_, v1, by rw [e1]; exact hi.rig, by rw [e1]; exact hi.lt, b1, ?_, hi.head, hi.seen, by simp only; rw [hsh, hi.shared], hi.pend, e2,
      ?_, ?_, ?_, ?_, ?_⟩
    · intro j c' hj
      rw [b2 j c' hj, btn_dup _ _ (by rw [hl]; rfl)]
    · intro j q hj
      simp only at hj
      by_cases hji : j = i
      · rw [if_pos hji] at hj; simp at hj
      · rw [if_neg hji] at hj
        obtain ⟨a0, a1, a2⟩ := hi.down j q hj
        refine ⟨a0, a1, ?_⟩
        rw [e3, if_neg, a2]
        intro he
        apply hji
        have := hq _ he
        refine hi.inj j i q hj ?_
        rw [this]
        congr 2
        omega
    · intro k hk
      rw [e3]
      split
      · rfl
      · next hne =>
        apply hi.up
        intro j hj
        by_cases hji : j = i
        · subst hji; rw [hj] at hne; simp at hne
        · have := hk j
          simp only [if_neg hji] at this
          exact this hj
    · intro j j' q hj hj'
      simp only at hj hj'
      by_cases h1 : j = i
      · rw [if_pos h1] at hj; simp at hj
      · by_cases h2 : j' = i
        · rw [if_pos h2] at hj'; simp at hj'
        · rw [if_neg h1] at hj
          rw [if_neg h2] at hj'
          exact hi.inj j j' q hj hj'
    · intro j k hj
      simp only
      by_cases hji : j = i
      · rw [if_pos hji]; rfl
      · rw [if_neg hji]; exact hi.bank j k hj
    · intro j hj
      simp only
      split
      · rfl
      · exact hi.absent j hj

theorem HoldInv.device {cs : List Config} {s : Sys} {h : Hold} {p : Player} (hi : HoldInv cs s h p) (n : Nat) (hn : n < 625) (date : List Nat) :
    ∃ p', HoldInv cs (s.holdStep (.device n date)) (h.step cs (.device n date)) p' := by
  have v := (Setup.any_step hi.view (e := .ui date (.rig n)) trivial).1
  have r := v.rig.id v.shape
  obtain ⟨b1, b2⟩ := reported hi.len hi.btns n (by omega)
  have hb : (s.holdStep (.device n date)).buttons = s.buttons.map (Button.report n) := by
    show s.buttons.map (Button.report ((s.dev.step (.ui date (.rig n))).1.rigId)) = _
    rw [r]
    rfl
  refine ⟨_, v, rfl, hn, by rw [hb]; exact b1, by rw [hb]; exact b2, ⟨_, rfl⟩, ?_, hi.shared, hi.pend, hi.free, hi.down, hi.up, hi.inj, hi.bank,
    hi.absent⟩
  intro w hw
  rcases List.mem_cons.1 hw with rfl | hw
  · unfold Rigs.Valid; omega
  · exact hi.seen w hw

theorem HoldInv.run {cs : List Config} (hv : ∀ c ∈ cs, Spec.Valid c) (hn : ∀ c ∈ cs, Preselects c = false) (es : List HoldEv) {s : Sys}
    {h : Hold} {p : Player} (hi : HoldInv cs s h p) (ha : HoldOk cs h es) : ∃ p', HoldInv cs (s.holdRun es) (h.run cs es) p' := by
  induction es generalizing s h p with
  | nil => exact ⟨p, hi⟩
  | cons e es ih =>
    cases e with
    | push i now date =>
      simp only [HoldOk] at ha
      cases hc : cs[i]? with
      | none =>
        have hstep : s.holdStep (.push i now date) = s := by
          have : s.buttons[i]? = none := by
            rw [List.getElem?_eq_none_iff] at hc ⊢
            rw [hi.len]; exact hc
          simp only [Sys.holdStep, Sys.act, this]
        have hh : h.step cs (.push i now date) = h := by simp only [Hold.step, hc]
        show ∃ p', HoldInv cs ((s.holdStep _).holdRun es) ((h.step cs _).run cs es) p'
        rw [hh] at ha
        rw [hstep, hh]
        exact ih hi ha.2
      | some c =>
        obtain ⟨hup, hfree⟩ := ha.1 c hc
        have hm := List.mem_of_getElem? hc
        obtain ⟨p', h'⟩ := hi.push i c hc (hv c hm) (hn c hm) hup hfree now date
        have hh : h.step cs (.push i now date) = ⟨h.st.press c, fun j => if j = i then some (h.st.slotFor c) else h.held j⟩ := by
          simp only [Hold.step, hc]
        show ∃ p', HoldInv cs ((s.holdStep _).holdRun es) ((h.step cs _).run cs es) p'
        have ha := ha.2
        rw [hh] at ha ⊢
        exact ih h' ha
    | release i now date =>
      obtain ⟨p', h'⟩ := hi.release i now date
      exact ih h' ha
    | update now =>
      exact ih (s := s.holdStep (.update now)) ⟨(Setup.any_step hi.view (e := .update now) trivial).1, hi.rig, hi.lt, hi.len, hi.btns, hi.head,
        hi.seen, hi.shared, hi.pend, hi.free, hi.down, hi.up, hi.inj, hi.bank, hi.absent⟩ ha
    | device n date =>
      obtain ⟨p', h'⟩ := hi.device n ha.1 date
      exact ih h' ha.2

end PySwitch.RigButtons
