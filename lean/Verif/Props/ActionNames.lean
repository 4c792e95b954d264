import Verif.Lemmas.ActionNames
import Verif.Props.RigButtons

/-!
C166: the names of rig and bank actions in the editor say what the actions do.
-/

namespace PySwitch.Props
open PySwitch.Properties (Text lit intText)
open PySwitch.Rigs PySwitch.RigButtons PySwitch.ActionNames PySwitch.ActionNames.Spec

namespace C166

/-- The rig of a call, as it is shown. -/
theorem rig_text {names : List Text} {call : Call} {c : RigSelect} (hl : call.Legal names) (h : RigCall names call c) :
    ∃ t, getArgument (nameArgs names call.args) (lit "rig") = some t ∧ Clean t ∧
      match c.rig with
      | none => t = lit "None"
      | some r => ∃ n : Nat, r = n ∧ t = intText n := by
  obtain ⟨⟨t, hb, hr⟩, _, _⟩ := h
  refine ⟨t, (getArgument_bound hl).2 hb, ?_, ?_⟩
  · cases hc : c.rig with
    | none => rw [hc] at hr; exact Code_clean hr
    | some r => rw [hc] at hr; obtain ⟨n, _, hn⟩ := hr; exact Code_clean hn
  · cases hc : c.rig with
    | none => rw [hc] at hr; exact hr
    | some r => rw [hc] at hr; exact hr

theorem slot_mk (b : Int) (r : Int) (h : Spec.Slot r) : slotOf (mkRig b (r - 1)) = r - 1 := by
  obtain ⟨h1, h2⟩ := h; unfold slotOf mkRig; omega

/-- Without another rig, the slot is the configured one. -/
theorem does_select {c : RigSelect} (hv : Spec.Valid (.rigSelect c)) (ha : c.rigOffAuto = false) (ho : c.rigOff = none) {r : Int}
    (hr : c.rig = some r) (s : Spec.State) : slotOf (s.press (.rigSelect c)).rig = r - 1 := by
  have hs := hv.1 r hr
  simp only [Spec.State.press]
  cases s.pending with
  | some b => simp only [Spec.State.goto, hr, Option.map_some, Option.getD_some]; exact slot_mk _ _ hs
  | none =>
    have : Spec.otherRig c s.seen = none := by simp [Spec.otherRig, ha, ho]
    simp only [Spec.State.goto, hr, this, meantRig, Option.getD_none]
    split <;> exact slot_mk _ _ hs

/-- Without a rig, the slot stays. -/
theorem does_current {c : RigSelect} (hr : c.rig = none) (s : Spec.State) :
    slotOf (s.press (.rigSelect c)).rig = slotOf s.rig := by
  have hm : ∀ b, slotOf (mkRig b (slotOf s.rig)) = slotOf s.rig := by intro b; unfold slotOf mkRig; omega
  simp only [Spec.State.press]
  cases s.pending with
  | some b => simp only [Spec.State.goto, hr, Option.map_none, Option.getD_none]; exact hm _
  | none => simp only [Spec.State.goto, hr, meantRig]; exact hm _

/-- With another rig, they are toggled. -/
theorem does_toggle {c : RigSelect} {r : Int} (hr : c.rig = some r) (s : Spec.State) {o : Int} (ho : Spec.otherRig c s.seen = some o)
    (hs : Spec.Slot r) (hso : Spec.Slot o) (other : Int → Prop) (hot : other o) :
    toggles r other s (s.press (.rigSelect c)) := by
  simp only [toggles, Spec.State.press]
  cases hp : s.pending with
  | some b =>
    left
    simp only [Spec.State.goto, hr, Option.map_some, Option.getD_some]
    exact ⟨slot_mk _ _ hs, .inr (.inl (by simp))⟩
  | none =>
    simp only [Spec.State.goto, hr, ho, meantRig, Option.getD_some]
    split
    · rename_i e
      right
      refine ⟨by rw [e]; exact slot_mk _ _ hs, trivial, ?_⟩
      have : ∀ b, slotOf (mkRig b (o - 1)) + 1 = o := fun b => by rw [slot_mk _ _ hso]; omega
      rw [this]
      exact hot
    · rename_i e
      left
      exact ⟨slot_mk _ _ hs, .inl fun h => e h.symm⟩

theorem auto_other {c : RigSelect} {r : Int} (hr : c.rig = some r) (ha : c.rigOffAuto = true) (seen : List Int) :
    ∃ o, Spec.otherRig c seen = some o ∧ Spec.Slot o ∧ (o = 1 ∨ o ≠ r ∧ ∃ id ∈ seen, slotOf id + 1 = o) := by
  simp only [Spec.otherRig, ha, if_true, hr]
  refine ⟨_, rfl, ?_⟩
  cases h : seen.find? fun id => decide (slotOf id ≠ r - 1 ∧ slotOf id + 1 ∉ c.exclude) with
  | none => exact ⟨⟨by decide, by decide⟩, .inl rfl⟩
  | some id =>
    have hid := List.mem_of_find?_eq_some h
    have hp := List.find?_some h
    simp only [decide_eq_true_eq] at hp
    simp only [Option.map_some, Option.getD_some]
    refine ⟨?_, .inr ⟨?_, id, hid, rfl⟩⟩
    · unfold Spec.Slot slotOf; omega
    · intro e; exact hp.1 (by omega)

end C166

namespace C166

/-- The meaning of a rig action. -/
theorem rig_meaning {c : RigSelect} (hv : Spec.Valid (.rigSelect c)) (hoff : c.rigOffAuto = false → ∀ r, c.rigOff = some r → 0 ≤ r) {r : Int}
    (hr : c.rig = some r) (n : Nat) (hn : r = n) :
    (c.rigOffAuto = false → c.rigOff = none → ∀ s, (Meaning.selectRig n).Does s (s.press (.rigSelect c))) ∧
    (c.rigOffAuto = true → ∀ s, (Meaning.toggleAuto n).Does s (s.press (.rigSelect c))) ∧
    (c.rigOffAuto = false → ∀ o, c.rigOff = some o → ∀ s, (Meaning.toggleRigs n o.toNat).Does s (s.press (.rigSelect c))) := by
  refine ⟨fun ha ho s => ?_, fun ha s => ?_, fun ha o ho s => ?_⟩
  · have := does_select hv ha ho hr s
    rw [hn] at this
    exact this
  · obtain ⟨o, h1, h2, h3⟩ := auto_other hr ha s.seen
    rw [hn] at h3
    have := does_toggle hr s h1 (hv.1 r hr) h2 (fun x => x = 1 ∨ x ≠ n ∧ ∃ id ∈ s.seen, slotOf id + 1 = x) h3
    rw [hn] at this
    exact this
  · have hso := hv.2.1 o ho
    have h1 : Spec.otherRig c s.seen = some o := by simp [Spec.otherRig, ha, ho]
    have := does_toggle hr s h1 (hv.1 r hr) hso (fun x => x = (o.toNat : Nat)) (by have := hoff ha o ho; omega)
    rw [hn] at this
    exact this

end C166

/-- The name of a rig select action says what happens when it is pressed, unless it has another rig but no rig. -/
theorem C166_rig_partial (call : Call) (hl : call.Legal (rigSelectParams.map (·.name))) (c : RigSelect)
    (hc : RigCall (rigSelectParams.map (·.name)) call c) (hv : Spec.Valid (.rigSelect c))
    (hn : c.rig = none → c.rigOffAuto = false ∧ c.rigOff = none) :
    ∃ m : Meaning, rigSelectName call.args ∈ m.names ∧ ∀ s : Spec.State, m.Does s (s.press (.rigSelect c)) := by
  obtain ⟨t, hrig, hclean, ht⟩ := C166.rig_text hl hc
  obtain ⟨hg, hval⟩ := given_value hl hc.2.1
  unfold rigSelectName ActionNames.rigSelect
  rw [hg, hrig]
  generalize hargs : nameArgs (rigSelectParams.map (·.name)) call.args = args at hrig hval
  have hrv : ∀ d, replaceValue args ⟨lit "rig", d⟩ = t := by intro d; simp [replaceValue, hrig]
  have hone : replaceTokens rigSelectParams args (lit "Select Rig {rig}") = lit "Select Rig " ++ t ++ [] := by
    rw [← hrv (lit "None")]
    exact replaceTokens_one (p := ⟨lit "rig", lit "None"⟩) (a := lit "Select Rig ") (z := []) (by decide) (by decide) (by rw [hrv]; exact hclean)
  have htwo : ∀ w, getArgument args (lit "rig_off") = some w → Clean w →
      replaceTokens rigSelectParams args (lit "Toggle Rigs {rig}/{rig_off}") = lit "Toggle Rigs " ++ t ++ lit "/" ++ w ++ [] := by
    intro w hw hcw
    have e2 : replaceValue args ⟨lit "rig_off", lit "None"⟩ = w := by simp [replaceValue, hw]
    rw [← hrv (lit "None"), ← e2]
    exact replaceTokens_two (p := ⟨lit "rig", lit "None"⟩) (q := ⟨lit "rig_off", lit "None"⟩) (a := lit "Toggle Rigs ") (b := lit "/") (z := [])
      (by decide) (by decide) (by decide) (by rw [hrv]; exact hclean) (by rw [e2]; exact hcw)
  cases hr : c.rig with
  | none =>
    obtain ⟨ha, ho⟩ := hn hr
    rw [hr] at ht
    subst ht
    simp only [ha, ho, Bool.false_eq_true, if_false, ne_eq, not_true_eq_false, decide_false]
    exact ⟨.currentRig, by simp [Meaning.names], C166.does_current hr⟩
  | some r =>
    rw [hr] at ht
    obtain ⟨n, hrn, rfl⟩ := ht
    obtain ⟨m1, m2, m3⟩ := C166.rig_meaning hv hc.2.2 hr n hrn
    have hns : (!(some (intText (n : Int)) == none || some (intText (n : Int)) != some (lit "None"))) = false := by
      simp [intText_ne_none]
    rw [hns]
    cases ha : c.rigOffAuto with
    | true =>
      rw [ha] at hval hg
      simp only [if_true] at hval ⊢
      obtain ⟨w, hw, hcw⟩ := hval (by simp)
      refine ⟨.toggleAuto n, ?_, m2 ha⟩
      simp only [ne_eq, reduceCtorEq, not_false_eq_true, decide_true, if_true]
      rw [htwo w hw (Code_clean (v := .auto) hcw)]
      rcases hcw with rfl | rfl <;> simp [Meaning.names, lit]
    | false =>
      rw [ha] at hval
      simp only [Bool.false_eq_true, if_false] at hval ⊢
      cases ho : c.rigOff with
      | none =>
        simp only [ne_eq, not_true_eq_false, decide_false, Bool.false_eq_true, if_false]
        exact ⟨.selectRig n, by rw [hone]; simp [Meaning.names], m1 ha ho⟩
      | some o =>
        rw [ho] at hval
        obtain ⟨w, hw, hcw⟩ := hval (by simp)
        refine ⟨.toggleRigs n o.toNat, ?_, m3 ha o ho⟩
        simp only [ne_eq, reduceCtorEq, not_false_eq_true, decide_true, if_true]
        rw [htwo w hw (Code_clean (v := .int o.toNat) hcw)]
        cases hcw
        simp [Meaning.names]

/-- The same for the rig select action with a morph display. -/
theorem C166_morph_partial (call : Call) (hl : call.Legal (rigMorphParams.map (·.name))) (c : RigSelect)
    (hc : RigCall (rigMorphParams.map (·.name)) call c) (hv : Spec.Valid (.rigSelect c))
    (hn : c.rig = none → c.rigOffAuto = false ∧ c.rigOff = none) :
    ∃ m : Meaning, rigMorphName call.args ∈ m.names ∧ ∀ s : Spec.State, m.Does s (s.press (.rigSelect c)) := by
  obtain ⟨t, hrig, hclean, ht⟩ := C166.rig_text hl hc
  obtain ⟨hg, hval⟩ := given_value hl hc.2.1
  unfold rigMorphName rigMorph
  rw [hg]
  generalize hargs : nameArgs (rigMorphParams.map (·.name)) call.args = args at hrig hval
  have hrv : ∀ d, replaceValue args ⟨lit "rig", d⟩ = t := by intro d; simp [replaceValue, hrig]
  have hone : replaceTokens rigMorphParams args (lit "Select Rig {rig} & Morph Display") = lit "Select Rig " ++ t ++ lit " & Morph Display" := by
    rw [← hrv (lit "None")]
    exact replaceTokens_one (p := ⟨lit "rig", lit "None"⟩) (a := lit "Select Rig ") (z := lit " & Morph Display") (by decide) (by decide)
      (by rw [hrv]; exact hclean)
  have htwo : ∀ w, getArgument args (lit "rig_off") = some w → Clean w →
      replaceTokens rigMorphParams args (lit "Toggle Rigs {rig}/{rig_off} & Morph Display") =
        lit "Toggle Rigs " ++ t ++ lit "/" ++ w ++ lit " & Morph Display" := by
    intro w hw hcw
    have e2 : replaceValue args ⟨lit "rig_off", lit "None"⟩ = w := by simp [replaceValue, hw]
    rw [← hrv (lit "None"), ← e2]
    exact replaceTokens_two (p := ⟨lit "rig", lit "None"⟩) (q := ⟨lit "rig_off", lit "None"⟩) (a := lit "Toggle Rigs ") (b := lit "/")
      (z := lit " & Morph Display") (by decide) (by decide) (by decide) (by rw [hrv]; exact hclean) (by rw [e2]; exact hcw)
  cases hr : c.rig with
  | none =>
    obtain ⟨ha, ho⟩ := hn hr
    rw [hr] at ht
    subst ht
    simp only [ha, ho, Bool.false_eq_true, if_false, ne_eq, not_true_eq_false, decide_false]
    exact ⟨.currentRig, by rw [hone]; decide, C166.does_current hr⟩
  | some r =>
    rw [hr] at ht
    obtain ⟨n, hrn, rfl⟩ := ht
    obtain ⟨m1, m2, m3⟩ := C166.rig_meaning hv hc.2.2 hr n hrn
    cases ha : c.rigOffAuto with
    | true =>
      rw [ha] at hval hg
      simp only [if_true] at hval ⊢
      obtain ⟨w, hw, hcw⟩ := hval (by simp)
      refine ⟨.toggleAuto n, ?_, m2 ha⟩
      simp only [ne_eq, reduceCtorEq, not_false_eq_true, decide_true, if_true]
      rw [htwo w hw (Code_clean (v := .auto) hcw)]
      rcases hcw with rfl | rfl <;> simp [Meaning.names, lit]
    | false =>
      rw [ha] at hval
      simp only [Bool.false_eq_true, if_false] at hval ⊢
      cases ho : c.rigOff with
      | none =>
        simp only [ne_eq, not_true_eq_false, decide_false, Bool.false_eq_true, if_false]
        exact ⟨.selectRig n, by rw [hone]; simp [Meaning.names], m1 ha ho⟩
      | some o =>
        rw [ho] at hval
        obtain ⟨w, hw, hcw⟩ := hval (by simp)
        refine ⟨.toggleRigs n o.toNat, ?_, m3 ha o ho⟩
        simp only [ne_eq, reduceCtorEq, not_false_eq_true, decide_true, if_true]
        rw [htwo w hw (Code_clean (v := .int o.toNat) hcw)]
        cases hcw
        simp [Meaning.names]

/-- The name of a bank select action says what happens when it is pressed, unless it preselects and has another bank. -/
theorem C166_bank_partial (call : Call) (hl : call.Legal (bankSelectParams.map (·.name))) (c : BankSelect)
    (hc : BankCall (bankSelectParams.map (·.name)) call c) (hn : c.preselect = true → c.bankOff = none) :
    ∃ m : Meaning, bankSelectName call.args ∈ m.names ∧ ∀ s : Spec.State, m.Does s (s.press (.bankSelect c)) := by
  obtain ⟨⟨n, hbn, hb⟩, hoff, hpos, hpre⟩ := hc
  obtain ⟨hg, hval⟩ := given_value hl hoff
  have hbank := (getArgument_bound hl).2 hb
  unfold bankSelectName ActionNames.bankSelect
  rw [hg]
  have hpre' : (getArgument (nameArgs (bankSelectParams.map (·.name)) call.args) (lit "preselect") == some (lit "True")) = c.preselect := by
    cases hp : c.preselect with
    | true =>
      rw [hp] at hpre
      rw [(getArgument_bound hl).2 hpre]
      exact beq_self_eq_true _
    | false =>
      rw [hp] at hpre
      simp only [Bool.false_eq_true, if_false] at hpre
      cases hx : getArgument (nameArgs (bankSelectParams.map (·.name)) call.args) (lit "preselect") with
      | none => rfl
      | some t =>
        rw [hpre t ((getArgument_bound hl).1 hx)]
        decide
  rw [hpre']
  generalize nameArgs (bankSelectParams.map (·.name)) call.args = args at hbank hval
  have hbv : replaceValue args ⟨lit "bank", lit "None"⟩ = intText n := by simp [replaceValue, hbank]
  have hone : ∀ a, '{' ∉ a → replaceTokens bankSelectParams args (a ++ lit "{bank}") = a ++ intText n := by
    intro a ha
    have := replaceTokens_one (p := ⟨lit "bank", lit "None"⟩) (ps := bankSelectParams.tail) (args := args) (a := a) (z := []) ha (by decide)
      (by rw [hbv]; exact intText_clean n)
    rw [hbv] at this
    simpa [lit, bankSelectParams] using this
  cases ho : c.bankOff with
  | none =>
    simp only [ne_eq, not_true_eq_false, decide_false, Bool.false_eq_true, if_false]
    cases hp : c.preselect with
    | true =>
      rw [if_pos rfl]
      have : lit "Preselect Bank {bank}" = lit "Preselect Bank " ++ lit "{bank}" := by decide
      rw [this, hone _ (by decide)]
      refine ⟨.preselectBank n, by simp [Meaning.names], fun s => ?_⟩
      simp only [Meaning.Does, Spec.State.press, hp, if_true, hbn, true_and]
      split
      · rename_i h; simp only [Option.getD_none]; exact h.2
      · rfl
    | false =>
      have : lit "Select Bank {bank}" = lit "Select Bank " ++ lit "{bank}" := by decide
      simp only [Bool.false_eq_true, if_false]
      rw [this, hone _ (by decide)]
      refine ⟨.selectBank n, by simp [Meaning.names], fun s => ?_⟩
      simp only [Meaning.Does, Spec.State.press, hp, Bool.false_eq_true, if_false, Spec.State.goto, ho, Option.getD_none, hbn, ite_self]
      unfold bankOf slotOf mkRig
      omega
  | some o =>
    have hp : c.preselect = false := by
      cases hp : c.preselect with
      | false => rfl
      | true => rw [hn hp] at ho; cases ho
    rw [ho] at hval
    obtain ⟨w, hw, hcw⟩ := hval (by simp)
    cases hcw
    simp only [ne_eq, reduceCtorEq, not_false_eq_true, decide_true, if_true]
    refine ⟨.toggleBanks n o.toNat, ?_, fun s => ?_⟩
    · have e2 : replaceValue args ⟨lit "bank_off", lit "None"⟩ = intText (o.toNat : Nat) := by simp only [replaceValue, hw]; rfl
      have := replaceTokens_two (p := ⟨lit "bank", lit "None"⟩) (q := ⟨lit "bank_off", lit "None"⟩) (ps := bankSelectParams.tail.tail)
        (args := args) (a := lit "Toggle Banks ") (b := lit "/") (z := []) (by decide) (by decide) (by decide)
        (by rw [hbv]; exact intText_clean n) (by rw [e2]; exact intText_clean _)
      rw [hbv, e2] at this
      simp only [Meaning.names, List.mem_singleton]
      have e : lit "Toggle Banks {bank}/{bank_off}" = lit "Toggle Banks " ++ ('{' :: (lit "bank" ++ ['}']) ++ (lit "/" ++
        ('{' :: (lit "bank_off" ++ ['}']) ++ []))) := by decide
      rw [e]
      rw [List.append_nil (as := lit "Toggle Banks " ++ intText (n : Int) ++ lit "/" ++ intText (o.toNat : Nat))] at this
      exact this
    · have hoo : ((o.toNat : Nat) : Int) = o := by have := hpos o ho; omega
      simp only [Meaning.Does, Spec.State.press, hp, Bool.false_eq_true, if_false, Spec.State.goto, ho, Option.getD_some, hbn]
      unfold bankOf slotOf mkRig
      split <;> omega

namespace C166

/-- What follows a number does not begin with a digit. -/
def Stop (r : Text) : Prop := ∀ c r', r = c :: r' → c.isDigit = false

theorem split {n n' : Nat} {r r' : Text} (h : intText (n : Int) ++ r = intText (n' : Int) ++ r') (hr : Stop r) (hr' : Stop r') :
    n = n' ∧ r = r' := by
  have tw : ∀ {n : Nat} {r : Text}, Stop r → (intText (n : Int) ++ r).takeWhile Char.isDigit = intText (n : Int) := by
    intro n r hr
    rw [List.takeWhile_append_of_pos (intText_digits n)]
    cases r with
    | nil => simp
    | cons c r => rw [List.takeWhile_cons_of_neg (by simp [hr c r rfl]), List.append_nil]
  have e : intText (n : Int) = intText (n' : Int) := by rw [← tw hr, h, tw hr']
  refine ⟨PySwitch.Properties.intText_inj e, ?_⟩
  rw [e] at h
  exact List.append_cancel_left h

theorem first {n : Nat} {r : Text} {c : Char} {l : Text} (h : intText (n : Int) ++ r = c :: l) : c.isDigit = true := by
  have hd := intText_digits n
  have hne : intText (n : Int) ≠ [] := by rw [PySwitch.Properties.intText_nat]; exact Nat.toDigits_ne_nil
  cases e : intText (n : Int) with
  | nil => exact absurd e hne
  | cons d l' =>
    rw [e] at h hd
    simp only [List.cons_append, List.cons.injEq] at h
    rw [← h.1]
    exact hd d (by simp)

theorem stop_nil : Stop [] := by intro c r h; cases h
theorem stop_space (l : Text) : Stop (' ' :: l) := by intro c r h; cases h; decide
theorem stop_slash (l : Text) : Stop ('/' :: l) := by intro c r h; cases h; decide

/-- The texts around the first number. -/
def forms : Meaning → List (Text × Nat × Text)
  | .selectRig n => [(lit "Select Rig ", n, []), (lit "Select Rig ", n, lit " & Morph Display")]
  | .toggleRigs a b => [(lit "Toggle Rigs ", a, lit "/" ++ intText b), (lit "Toggle Rigs ", a, lit "/" ++ intText b ++ lit " & Morph Display")]
  | .toggleAuto a => [(lit "Toggle Rigs ", a, lit "/\"auto\""), (lit "Toggle Rigs ", a, lit "/'auto'"),
      (lit "Toggle Rigs ", a, lit "/\"auto\" & Morph Display"), (lit "Toggle Rigs ", a, lit "/'auto' & Morph Display")]
  | .currentRig => []
  | .selectBank n => [(lit "Select Bank ", n, [])]
  | .preselectBank n => [(lit "Preselect Bank ", n, [])]
  | .toggleBanks a b => [(lit "Toggle Banks ", a, lit "/" ++ intText b)]

def prefixes : List Text := [lit "Select Rig ", lit "Toggle Rigs ", lit "Select Bank ", lit "Preselect Bank ", lit "Toggle Banks "]

theorem names_forms (m : Meaning) (h : m ≠ .currentRig) : m.names = (forms m).map fun f => f.1 ++ (intText (f.2.1 : Int) ++ f.2.2) := by
  cases m with
  | currentRig => exact absurd rfl h
  | toggleAuto a =>
    simp only [Meaning.names, forms, List.map_cons, List.map_nil, List.append_assoc]
  | _ => simp only [Meaning.names, forms, List.map_cons, List.map_nil, List.append_assoc, List.append_nil]

theorem forms_ok (m : Meaning) : ∀ f ∈ forms m, f.1 ∈ prefixes ∧ Stop f.2.2 := by
  intro f hf
  cases m <;> simp only [forms, List.mem_cons, List.not_mem_nil, or_false] at hf
  case selectRig n => rcases hf with rfl | rfl <;> exact ⟨by simp [prefixes], by first | exact stop_nil | exact stop_space _⟩
  case toggleRigs a b => rcases hf with rfl | rfl <;> exact ⟨by simp [prefixes], stop_slash _⟩
  case toggleAuto a => rcases hf with rfl | rfl | rfl | rfl <;> exact ⟨by simp [prefixes], stop_slash _⟩
  case selectBank n => subst hf; exact ⟨by simp [prefixes], stop_nil⟩
  case preselectBank n => subst hf; exact ⟨by simp [prefixes], stop_nil⟩
  case toggleBanks a b => subst hf; exact ⟨by simp [prefixes], stop_slash _⟩

theorem form {m : Meaning} {t : Text} (hm : m ≠ .currentRig) (h : t ∈ m.names) :
    ∃ f ∈ forms m, t = f.1 ++ (intText (f.2.1 : Int) ++ f.2.2) ∧ f.1 ∈ prefixes ∧ Stop f.2.2 := by
  rw [names_forms m hm, List.mem_map] at h
  obtain ⟨f, hf, rfl⟩ := h
  exact ⟨f, hf, rfl, forms_ok m f hf⟩

/-- The beginning. -/
def pre : Meaning → Text
  | .selectRig _ => lit "Select Rig "
  | .toggleRigs _ _ | .toggleAuto _ => lit "Toggle Rigs "
  | .currentRig => []
  | .selectBank _ => lit "Select Bank "
  | .preselectBank _ => lit "Preselect Bank "
  | .toggleBanks _ _ => lit "Toggle Banks "

/-- The same text around the same number. -/
theorem forms_inj {m m' : Meaning} {p : Text} {n : Nat} {r : Text} (h : (p, n, r) ∈ forms m) (h' : (p, n, r) ∈ forms m') : m = m' := by
  have ha : ∀ (b : Nat) (r : Text) (c : Char) (l : Text), c.isDigit = false → intText (b : Int) ++ r ≠ c :: l := by
    intro b r c l hc he; rw [first he] at hc; cases hc
  have hpre : ∀ {m}, (p, n, r) ∈ forms m → p = pre m := by
    intro m h
    cases m <;> simp only [forms, List.mem_cons, List.not_mem_nil, or_false, Prod.mk.injEq] at h <;> simp only [pre]
    all_goals first
      | exact h.1
      | (rcases h with h | h <;> exact h.1)
      | (rcases h with h | h | h | h <;> exact h.1)
  have hpp := (hpre h).symm.trans (hpre h')
  clear hpre
  have hsp := stop_space (lit "& Morph Display")
  have auto_ne : ∀ a b a', (p, n, r) ∈ forms (.toggleRigs a b) → (p, n, r) ∈ forms (.toggleAuto a') → False := by
    intro a b a' h h'
    simp only [forms, List.mem_cons, List.not_mem_nil, or_false, Prod.mk.injEq] at h h'
    have h1 : ∃ x, r = '/' :: (intText (b : Int) ++ x) := by
      rcases h with h | h
      · exact ⟨[], by rw [h.2.2]; simp [lit]⟩
      · exact ⟨lit " & Morph Display", by rw [h.2.2]; simp [lit]⟩
    obtain ⟨x, hx⟩ := h1
    rcases h' with h' | h' | h' | h' <;>
      (have e := hx.symm.trans h'.2.2; simp only [lit] at e; exact absurd (List.cons.inj e).2 (ha _ _ _ _ (by decide)))
  cases m <;> cases m' <;> first | (simp [pre, lit] at hpp; done) | skip
  case selectRig.selectRig a a' =>
    simp only [forms, List.mem_cons, List.not_mem_nil, or_false, Prod.mk.injEq] at h h'
    have h1 : n = a := by rcases h with h | h <;> exact h.2.1
    have h2 : n = a' := by rcases h' with h' | h' <;> exact h'.2.1
    rw [← h1, ← h2]
  case toggleRigs.toggleRigs a b a' b' =>
    simp only [forms, List.mem_cons, List.not_mem_nil, or_false, Prod.mk.injEq] at h h'
    have key : ∀ {a b : Nat}, (p = lit "Toggle Rigs " ∧ n = a ∧ r = lit "/" ++ intText b ∨
        p = lit "Toggle Rigs " ∧ n = a ∧ r = lit "/" ++ intText b ++ lit " & Morph Display") →
        n = a ∧ ∃ x, Stop x ∧ r = lit "/" ++ (intText b ++ x) := by
      intro a b h
      rcases h with h | h
      · exact ⟨h.2.1, [], stop_nil, by rw [h.2.2]; simp⟩
      · exact ⟨h.2.1, lit " & Morph Display", hsp, by rw [h.2.2]; simp⟩
    obtain ⟨h1, x, hx, e⟩ := key h
    obtain ⟨h2, x', hx', e'⟩ := key h'
    have := (split (List.append_cancel_left (e.symm.trans e')) hx hx').1
    rw [← h1, ← h2, this]
  case toggleRigs.toggleAuto a b a' => exact (auto_ne _ _ _ h h').elim
  case toggleAuto.toggleRigs a a' b' => exact (auto_ne _ _ _ h' h).elim
  case toggleAuto.toggleAuto a a' =>
    simp only [forms, List.mem_cons, List.not_mem_nil, or_false, Prod.mk.injEq] at h h'
    have h1 : n = a := by rcases h with h | h | h | h <;> exact h.2.1
    have h2 : n = a' := by rcases h' with h' | h' | h' | h' <;> exact h'.2.1
    rw [← h1, ← h2]
  case currentRig.currentRig => rfl
  case selectBank.selectBank a a' =>
    simp only [forms, List.mem_cons, List.not_mem_nil, or_false, Prod.mk.injEq] at h h'
    rw [← h.2.1, ← h'.2.1]
  case preselectBank.preselectBank a a' =>
    simp only [forms, List.mem_cons, List.not_mem_nil, or_false, Prod.mk.injEq] at h h'
    rw [← h.2.1, ← h'.2.1]
  case toggleBanks.toggleBanks a b a' b' =>
    simp only [forms, List.mem_cons, List.not_mem_nil, or_false, Prod.mk.injEq] at h h'
    have := PySwitch.Properties.intText_inj (List.append_cancel_left (h.2.2.symm.trans h'.2.2))
    rw [← h.2.1, ← h'.2.1, this]

theorem current {t : Text} (h : t ∈ Meaning.currentRig.names) {p : Text} {n : Nat} {r : Text} (hp : p ∈ prefixes) :
    t ≠ p ++ (intText (n : Int) ++ r) := by
  intro e
  simp only [Meaning.names, List.mem_cons, List.not_mem_nil, or_false] at h
  simp only [prefixes, List.mem_cons, List.not_mem_nil, or_false] at hp
  rcases h with rfl | rfl <;> rcases hp with rfl | rfl | rfl | rfl | rfl <;> simp [lit] at e
  exact absurd (first e.symm) (by decide)

theorem prefix_eq {p p' x x' : Text} (hp : p ∈ prefixes) (hp' : p' ∈ prefixes) (h : p ++ x = p' ++ x') : p = p' ∧ x = x' := by
  have hall : ∀ p ∈ prefixes, ∀ p' ∈ prefixes, p.isPrefixOf p' = true → p = p' := by decide
  have e : p = p' := by
    rcases List.append_eq_append_iff.1 h with ⟨a, h1, _⟩ | ⟨a, h1, _⟩
    · exact hall p hp p' hp' (List.isPrefixOf_iff_prefix.2 ⟨a, h1.symm⟩)
    · exact (hall p' hp' p hp (List.isPrefixOf_iff_prefix.2 ⟨a, h1.symm⟩)).symm
  subst e
  exact ⟨rfl, List.append_cancel_left h⟩

end C166

/-- A name says just one thing. -/
theorem C166_unambiguous (m m' : Meaning) (t : Text) (h : t ∈ m.names) (h' : t ∈ m'.names) : m = m' := by
  by_cases e : m = .currentRig <;> by_cases e' : m' = .currentRig
  · rw [e, e']
  · obtain ⟨f', _, ht', hp', _⟩ := C166.form e' h'
    rw [e] at h
    exact absurd ht' (C166.current h hp')
  · obtain ⟨f, _, ht, hp, _⟩ := C166.form e h
    rw [e'] at h'
    exact absurd ht (C166.current h' hp)
  · obtain ⟨⟨p, n, r⟩, hf, ht, hp, hr⟩ := C166.form e h
    obtain ⟨⟨p', n', r'⟩, hf', ht', hp', hr'⟩ := C166.form e' h'
    obtain ⟨h1, h2⟩ := C166.prefix_eq hp hp' (ht.symm.trans ht')
    obtain ⟨h3, h4⟩ := C166.split h2 hr hr'
    simp only at h1 h3 h4
    subst h1 h3 h4
    exact C166.forms_inj hf hf'

/-- A button of a panel does what its name says: `m` is what the editor shows for button `i`, and the buttons (with preselection) are used in
any allowed way. The device is in the rig which the name promises for the rig it was in before. -/
theorem C166_panel_partial (now : Int) (date : List Nat) (before : List PySwitch.Kemper.Setup.Ev) (hb : Spec.Ready before) (cs : List Config)
    (bs : List Button) (hc : cs.mapM Config.create = some bs) (hv : ∀ c ∈ cs, Spec.Valid c) (es : List Ev) (i : Nat) (t0 t1 : Int)
    (d : List Nat) (c : Config) (hi : cs[i]? = some c) (m : Meaning) (hm : ∀ s : Spec.State, m.Does s (s.press c)) :
    let dev := ((PySwitch.Kemper.Setup.initial now date).run before).1
    let s₀ : Spec.State := { rig := dev.rigId, seen := [(dev.rigId : Int)] }
    Spec.Allowed cs s₀ (es ++ [.press i t0 t1 d]) → Spec.Allowed cs s₀ es →
      m.Does (s₀.presses cs es) (s₀.presses cs (es ++ [.press i t0 t1 d])) ∧
      (((start bs dev).run es).dev.rigId : Int) = (s₀.presses cs es).rig ∧
      (((start bs dev).run (es ++ [.press i t0 t1 d])).dev.rigId : Int) = (s₀.presses cs (es ++ [.press i t0 t1 d])).rig := by
  intro dev s₀ ha ha'
  refine ⟨?_, (C162_panel_partial now date before hb cs bs hc hv es ha').1,
    (C162_panel_partial now date before hb cs bs hc hv (es ++ [.press i t0 t1 d]) ha).1⟩
  have : ∀ (es : List Ev) (s : Spec.State), s.presses cs (es ++ [.press i t0 t1 d]) = (s.presses cs es).press c := by
    intro es
    induction es with
    | nil => intro s; simp only [List.nil_append, Spec.State.presses, hi]
    | cons e es ih =>
      intro s
      cases e with
      | press j a b x =>
        simp only [List.cons_append, Spec.State.presses]
        cases cs[j]? with
        | none => exact ih _
        | some c' => exact ih _
      | update _ => simp only [List.cons_append, Spec.State.presses]; exact ih _
      | device rig _ => simp only [List.cons_append, Spec.State.presses]; exact ih _
  rw [this]
  exact hm _

/-- `RIG_SELECT(3, rig_off = "auto", text = '{rig}')`: the hypotheses are met, and this is the name. -/
example : let call : Call := ⟨[lit "3"], [(lit "rig_off", lit "\"auto\""), (lit "text", lit "'{rig}'")]⟩
    let c : RigSelect := { rig := some 3, rigOffAuto := true }
    call.Legal (rigSelectParams.map (·.name)) ∧ RigCall (rigSelectParams.map (·.name)) call c ∧ Spec.Valid (.rigSelect c) ∧
      rigSelectName call.args = lit "Toggle Rigs 3/\"auto\"" := by
  refine ⟨?_, ?_, ?_, by decide +kernel⟩
  · unfold Call.Legal; decide +kernel
  · refine ⟨⟨lit "3", .inl ⟨0, by decide, by decide⟩, 3, rfl, by unfold PyVal.Code; decide⟩, .inl ⟨lit "\"auto\"", .inr (by simp), .inl rfl⟩, ?_⟩
    intro h; cases h
  · simp [Spec.Valid, Spec.Slot]

/-- `BANK_SELECT(bank = 4, preselect = True)` -/
example : let call : Call := ⟨[], [(lit "bank", lit "4"), (lit "preselect", lit "True")]⟩
    let c : BankSelect := { bank := 4, preselect := true }
    call.Legal (bankSelectParams.map (·.name)) ∧ BankCall (bankSelectParams.map (·.name)) call c ∧
      bankSelectName call.args = lit "Preselect Bank 4" := by
  refine ⟨?_, ?_, by decide +kernel⟩
  · unfold Call.Legal; decide +kernel
  · refine ⟨⟨4, rfl, .inr (by decide)⟩, .inr ⟨?_, rfl⟩, (by intro r h; cases h), .inr (by decide)⟩
    rintro t (⟨i, _, h⟩ | h)
    · simp at h
    · simp [lit] at h

/-- `RIG_SELECT(rig = None, rig_off = 2)` is shown as "Toggle Rigs None/2", but it just selects the current rig again and never rig 2. -/
theorem C166_none_witness :
    rigSelectName (Call.args ⟨[], [(lit "rig", lit "None"), (lit "rig_off", lit "2")]⟩) = lit "Toggle Rigs None/2" ∧
    ∀ s : Spec.State, slotOf (s.press (.rigSelect { rig := none, rigOff := some 2 })).rig = slotOf s.rig :=
  ⟨by decide +kernel, C166.does_current rfl⟩

/-- `BANK_SELECT(bank = 4, bank_off = 2, preselect = True)` is shown as "Toggle Banks 4/2", but it never selects a bank, and it preselects bank 4
even if this is the current one. -/
theorem C166_preselect_witness :
    bankSelectName (Call.args ⟨[], [(lit "bank", lit "4"), (lit "bank_off", lit "2"), (lit "preselect", lit "True")]⟩) =
      lit "Toggle Banks 4/2" ∧
    ∀ s : Spec.State, let s' := s.press (.bankSelect { bank := 4, bankOff := some 2, preselect := true })
      s'.rig = s.rig ∧ s'.pending.getD (bankOf s'.rig) = 3 := by
  refine ⟨by decide +kernel, fun s => ⟨rfl, ?_⟩⟩
  simp only [Spec.State.press, if_true]
  split
  · rename_i h; simp only [Option.getD_none]; exact h.2
  · rfl

end PySwitch.Props
