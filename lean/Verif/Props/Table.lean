import Verif.Spec.Table
/-
Property C78: the parameter definitions.
-/
namespace PySwitch.Props
open PySwitch PySwitch.Wire PySwitch.Mapping PySwitch.Table PySwitch.Spec

/-- C78. No two definitions have the same name (so that sharing parameters by name, C20, never mixes up two of them), and each
dependency is a definition. -/
theorem C78_names : (all.map (·.name)).Nodup ∧ ∀ p ∈ all, ∀ d, p.depends = some d → d ∈ all.map (·.name) := by
  decide +kernel

/-- C78. The addresses used for setting and requesting a parameter and in its response are the same. -/
theorem C78_address : ∀ p ∈ all, ∀ r, p.mapping.response = .one r →
    (∀ q, p.mapping.request = .one q → address q = address r ∧ (address q).isSome) ∧
    (∀ s m d, p.mapping.set = .one s → s = .sysex m d → address s = address r ∧ (address s).isSome) := by
  have h : all.all (fun p => match p.mapping.response with
      | .one r =>
        (match p.mapping.request with | .one q => decide (address q = address r) && (address q).isSome | _ => true) &&
        (match p.mapping.set with
          | .one (.sysex m d) => decide (address (.sysex m d) = address r) && (address (.sysex m d)).isSome
          | _ => true)
      | _ => true) = true := by decide +kernel
  rw [List.all_eq_true] at h
  intro p hp r hr
  have := h p hp
  simp only [hr, Bool.and_eq_true] at this
  refine ⟨fun q hq => ?_, fun s m d hs hsd => ?_⟩
  · have h1 := this.1
    simp only [hq, Bool.and_eq_true, decide_eq_true_eq] at h1
    exact h1
  · subst hsd
    have h2 := this.2
    simp only [hs, Bool.and_eq_true, decide_eq_true_eq] at h2
    exact h2

/-- A plain mapping has this SysEx template. -/
private def accepts (M : Mapping) (m key : List Nat) : Bool :=
  match M.twoPart, M.response with
  | false, .one (.sysex m' d') => decide (m = m') && decide (key = slice d' 2 6)
  | _, _ => false

private theorem parse_sysex (M : Mapping) (m data : List Nat) (hl : 2 ≤ data.length)
    (h2 : M.twoPart = true → M.response = rigResponse) :
    ∃ M', parse M (.sysex m data) = .ok (accepts M m (slice data 2 6), M') ∧
      (accepts M m (slice data 2 6) = true → M'.value = some (match M.type with
        | .numeric => .num (data[data.length - 2]! * 128 + data[data.length - 1]!)
        | .string => .str (slice data 6 (data.length - 1)))) := by
  cases ht : M.twoPart with
  | true =>
    refine ⟨M, ?_, by simp [accepts, ht]⟩
    simp [parse, ht, parseTwoPart, h2 ht, rigResponse, parseAgainst, Table.cc, Table.pc, accepts]
  | false =>
    cases hr : M.response with
    | none => exact ⟨M, by simp [parse, ht, parsePlain, hr, parseAgainst, accepts], by simp [accepts, ht, hr]⟩
    | two a b => exact ⟨M, by simp [parse, ht, parsePlain, hr, parseAgainst, accepts], by simp [accepts, ht, hr]⟩
    | one r =>
      cases r with
      | cc a b c => exact ⟨M, by simp [parse, ht, parsePlain, hr, parseAgainst, accepts], by simp [accepts, ht, hr]⟩
      | pc a b => exact ⟨M, by simp [parse, ht, parsePlain, hr, parseAgainst, accepts], by simp [accepts, ht, hr]⟩
      | unknown a => exact ⟨M, by simp [parse, ht, parsePlain, hr, parseAgainst, accepts], by simp [accepts, ht, hr]⟩
      | bad a => exact ⟨M, by simp [parse, ht, parsePlain, hr, parseAgainst, accepts], by simp [accepts, ht, hr]⟩
      | sysex m' d' =>
        have hacc : accepts M m (slice data 2 6) = (decide (m = m') && decide (slice data 2 6 = slice d' 2 6)) := by
          simp [accepts, ht, hr]
        rw [hacc]
        by_cases h1 : m = m'
        · by_cases h3 : slice data 2 6 = slice d' 2 6
          · cases hty : M.type with
            | string =>
              refine ⟨{ M with value := some (.str (slice data 6 (data.length - 1))) }, ?_, fun _ => rfl⟩
              simp [parse, ht, parsePlain, hr, parseAgainst, h1, h3, hty]
            | numeric =>
              refine ⟨{ M with value := some (.num (data[data.length - 2]! * 128 + data[data.length - 1]!)) }, ?_, fun _ => rfl⟩
              have e1 : fromEnd data 2 = .ok data[data.length - 2]! := by
                unfold fromEnd
                rw [if_neg (by omega), List.getElem?_eq_getElem (by omega)]
                simp [getElem!_pos, show data.length - 2 < data.length by omega]
              have e2 : fromEnd data 1 = .ok data[data.length - 1]! := by
                unfold fromEnd
                rw [if_neg (by omega), List.getElem?_eq_getElem (by omega)]
                simp [getElem!_pos, show data.length - 1 < data.length by omega]
              simp [parse, ht, parsePlain, hr, parseAgainst, h1, h3, hty, e1, e2]
          · exact ⟨M, by simp [parse, ht, parsePlain, hr, parseAgainst, h1, h3], by simp [h3]⟩
        · exact ⟨M, by simp [parse, ht, parsePlain, hr, parseAgainst, h1], by simp [h1]⟩

private theorem two_part_all : ∀ p ∈ all, p.mapping.twoPart = true → p.mapping.response = rigResponse := by decide +kernel

/-- The requests of the definitions, and who accepts the answers. -/
private theorem table_requests : ∀ p ∈ all, ∀ q ∈ all,
    (match p.mapping.request with
      | .one (.sysex m [_, _, 0x41, i, page, addr]) =>
        decide ((accepts q.mapping m [0x01, i, page, addr] = true ↔ Same p.name q.name) ∧
        (Same p.name q.name → q.mapping.type = .numeric))
      | .one (.sysex m [_, _, 0x43, i, page, addr]) =>
        decide ((accepts q.mapping m [0x03, i, page, addr] = true ↔ Same p.name q.name) ∧
        (Same p.name q.name → q.mapping.type = .string))
      | .none => true
      | _ => false) = true := by decide +kernel

/-- C78. The answer of the device to the request of any parameter, with any value, is taken over by this parameter (and the one
meaning the same in the device, if any) and by no other one. -/
theorem C78_number (p q : Param) (hp : p ∈ all) (hq : q ∈ all) (rq a : Msg) (hr : p.mapping.request = .one rq) (value : Nat)
    (ha : answerNum value rq = some a) :
    ∃ taken m', parse q.mapping a = .ok (taken, m') ∧ (taken = true ↔ Same p.name q.name) ∧
      (taken = true → m'.value = some (.num value)) := by
  have ht := table_requests p hp q hq
  rw [hr] at ht
  unfold answerNum at ha
  split at ha
  · rename_i m x y i page addr
    simp only [Option.some.injEq] at ha
    subst ha
    simp only [decide_eq_true_eq] at ht
    obtain ⟨M', h1, h2⟩ := parse_sysex q.mapping m [0, 0, 0x01, i, page, addr, value / 128, value % 128] (by simp)
      (two_part_all q hq)
    refine ⟨_, M', h1, ht.1, fun h => ?_⟩
    rw [h2 h, ht.2 (ht.1.1 h)]
    have : value / 128 * 128 + value % 128 = value := by omega
    simp [this]
  · exact absurd ha (by simp)

/-- C78. The same for texts. -/
theorem C78_text (p q : Param) (hp : p ∈ all) (hq : q ∈ all) (rq a : Msg) (hr : p.mapping.request = .one rq) (chars : List Nat)
    (ha : answerText chars rq = some a) :
    ∃ taken m', parse q.mapping a = .ok (taken, m') ∧ (taken = true ↔ Same p.name q.name) ∧
      (taken = true → m'.value = some (.str chars)) := by
  have ht := table_requests p hp q hq
  rw [hr] at ht
  unfold answerText at ha
  split at ha
  · rename_i m x y i page addr
    simp only [Option.some.injEq] at ha
    subst ha
    simp only [decide_eq_true_eq] at ht
    have hs : slice ([0, 0, 0x03, i, page, addr] ++ chars ++ [0]) 2 6 = [0x03, i, page, addr] := by simp [slice]
    obtain ⟨M', h1, h2⟩ := parse_sysex q.mapping m ([0, 0, 0x03, i, page, addr] ++ chars ++ [0]) (by simp)
      (two_part_all q hq)
    rw [hs] at h1 h2
    refine ⟨_, M', h1, ht.1, fun h => ?_⟩
    rw [h2 h, ht.2 (ht.1.1 h)]
    simp [slice]
  · exact absurd ha (by simp)

/-- C78. Every request in the definitions is one the device answers. -/
theorem C78_answered (p : Param) (hp : p ∈ all) (rq : Msg) (hr : p.mapping.request = .one rq) (value : Nat) (chars : List Nat) :
    (p.mapping.type = .numeric → (answerNum value rq).isSome) ∧ (p.mapping.type = .string → (answerText chars rq).isSome) := by
  have ht := table_requests p hp p hp
  rw [hr] at ht
  have hs : Same p.name p.name := .inl rfl
  split at ht
  · rename_i h; cases h
    rw [decide_eq_true_eq] at ht
    exact ⟨fun _ => rfl, fun h => by rw [ht.2 hs] at h; cases h⟩
  · rename_i h; cases h
    rw [decide_eq_true_eq] at ht
    exact ⟨fun h => (by rw [ht.2 hs] at h; cases h), fun _ => rfl⟩
  · rename_i h; cases h
  · cases ht

/-- C78. Different parameters which are set by control changes use different controllers; all are valid, and none is one the device
uses for the rig number. -/
theorem C78_controllers : ∀ p ∈ all, ∀ n v ch, p.mapping.set = .one (.cc n v ch) →
    n ≤ 127 ∧ n ≠ 32 ∧ n ≠ 0 ∧ ∀ q ∈ all, ∀ n' v' ch', q.mapping.set = .one (.cc n' v' ch') → n = n' → p.name = q.name := by
  have h : ∀ p ∈ all, ∀ q ∈ all, (match p.mapping.set, q.mapping.set with
      | .one (.cc n _ _), .one (.cc n' _ _) => decide ((n ≤ 127 ∧ n ≠ 32 ∧ n ≠ 0) ∧ (n = n' → p.name = q.name))
      | _, _ => true) = true := by decide +kernel
  intro p hp n v ch hs
  have h1 := h p hp p hp
  simp only [hs, decide_eq_true_eq] at h1
  refine ⟨h1.1.1, h1.1.2.1, h1.1.2.2, fun q hq n' v' ch' hs' hn => ?_⟩
  have h2 := h p hp q hq
  simp only [hs, hs', decide_eq_true_eq] at h2
  exact h2.2 hn

/-- C78. Different parameters set by SysEx are set under different addresses, except those meaning the same in the device. -/
theorem C78_set_addresses : ∀ p ∈ all, ∀ q ∈ all, ∀ m d m' d', p.mapping.set = .one (.sysex m d) → q.mapping.set = .one (.sysex m' d') →
    (d = d' ↔ Same p.name q.name) := by
  have h : ∀ p ∈ all, ∀ q ∈ all, (match p.mapping.set, q.mapping.set with
      | .one (.sysex _ d), .one (.sysex _ d') => decide (d = d' ↔ Same p.name q.name)
      | _, _ => true) = true := by decide +kernel
  intro p hp q hq m d m' d' h1 h2
  have := h p hp q hq
  simp only [h1, h2, decide_eq_true_eq] at this
  exact this

/-- C78. Each effect slot is switched with the controller and requested on the page the device documents for it. -/
theorem C78_slots (i : Nat) (name : String) (control page : Nat) (h : slotDoc[i]? = some (name, control, page)) :
    ∃ p ∈ all, ∃ t ∈ all, p.name = "Slot State " ++ name ∧ t.name = "Slot Type " ++ name ∧
      p.mapping.set = .one (.cc control 0 none) ∧
      (∃ q, p.mapping.request = .one q ∧ address q = some [0, page, 3]) ∧
      (∃ q, t.mapping.request = .one q ∧ address q = some [0, page, 0]) ∧ t.mapping.set = .none := by
  have hl : i < slotDoc.length := (List.getElem?_eq_some_iff.1 h).1
  have key : ∀ i < slotDoc.length, ∃ p ∈ all, ∃ t ∈ all, p.name = "Slot State " ++ (slotDoc[i]?.getD ("", 0, 0)).1 ∧
      t.name = "Slot Type " ++ (slotDoc[i]?.getD ("", 0, 0)).1 ∧ p.mapping.set = .one (.cc (slotDoc[i]?.getD ("", 0, 0)).2.1 0 none) ∧
      p.mapping.request = .one (nrpn 0x41 (slotDoc[i]?.getD ("", 0, 0)).2.2 3) ∧
      t.mapping.request = .one (nrpn 0x41 (slotDoc[i]?.getD ("", 0, 0)).2.2 0) ∧
      t.mapping.set = .none := by
    intro i hi
    refine ⟨effectState i, ?_, effectType i, ?_, ?_⟩
    · have hi' : i ∈ List.range 10 := List.mem_range.2 hi
      exact List.mem_append_right _ (List.mem_flatMap.2 ⟨i, hi', by simp [slotParams]⟩)
    · have hi' : i ∈ List.range 10 := List.mem_range.2 hi
      exact List.mem_append_right _ (List.mem_flatMap.2 ⟨i, hi', by simp [slotParams]⟩)
    · revert i
      decide +kernel
  obtain ⟨p, hp, t, ht, h1, h2, h3, h4, h5, h6⟩ := key i hl
  rw [h] at h1 h2 h3 h4 h5
  exact ⟨p, hp, t, ht, h1, h2, h3, ⟨_, h4, rfl⟩, ⟨_, h5, rfl⟩, h6⟩

/-- C78. All parameters set by SysEx use the function code for setting. -/
theorem C78_set_code : ∀ p ∈ all, ∀ m d, p.mapping.set = .one (.sysex m d) → isSet (.sysex m d) = true := by
  have h : ∀ p ∈ all, (match p.mapping.set with | .one (.sysex m d) => isSet (.sysex m d) | _ => true) = true := by decide +kernel
  intro p hp m d hs
  have := h p hp
  simpa only [hs] using this

/-- C78. The parameters set by control changes are exactly the documented ones, with their controllers. -/
theorem C78_documented_controls (name : String) (n : Nat) :
    (∃ p ∈ all, p.name = name ∧ ∃ v ch, p.mapping.set = .one (.cc n v ch)) ↔ (name, n) ∈ allControls := by
  have h1 : ∀ p ∈ all, (match p.mapping.set with | .one (.cc n _ _) => decide ((p.name, n) ∈ allControls) | _ => true) = true := by
    decide +kernel
  have h2 : ∀ c ∈ allControls, ∃ p ∈ all, p.name = c.1 ∧
      (match p.mapping.set with | .one (.cc n _ _) => decide (n = c.2) | _ => false) = true := by decide +kernel
  constructor
  · rintro ⟨p, hp, rfl, v, ch, hs⟩
    have := h1 p hp
    simpa only [hs, decide_eq_true_eq] using this
  · intro hm
    obtain ⟨p, hp, hn, hs⟩ := h2 _ hm
    refine ⟨p, hp, hn, ?_⟩
    split at hs
    · rename_i n' v ch h'
      simp only [decide_eq_true_eq] at hs
      subst hs
      exact ⟨v, ch, h'⟩
    · cases hs

/-- C78. The parameters which are requested are exactly the documented ones, with their page and number. Those which can also be
set by SysEx are set under the same address. -/
theorem C78_documented_addresses (name : String) (page number : Nat) :
    (∃ p ∈ all, p.name = name ∧ ∃ rq, p.mapping.request = .one rq ∧ address rq = some [0, page, number] ∧
      ∀ m d, p.mapping.set = .one (.sysex m d) → address (.sysex m d) = some [0, page, number]) ↔ (name, page, number) ∈ allAddresses := by
  have h1 : ∀ p ∈ all, (match p.mapping.request with
      | .one rq => (match address rq with
        | some [_, page, number] => decide ((p.name, page, number) ∈ allAddresses)
        | _ => false)
      | _ => true) = true := by decide +kernel
  have h2 : ∀ c ∈ allAddresses, ∃ p ∈ all, p.name = c.1 ∧ (match p.mapping.request with
      | .one rq => decide (address rq = some [0, c.2.1, c.2.2])
      | _ => false) = true ∧ (match p.mapping.set with
      | .one (.sysex m d) => decide (address (.sysex m d) = some [0, c.2.1, c.2.2])
      | _ => true) = true := by decide +kernel
  constructor
  · rintro ⟨p, hp, rfl, rq, hs, ha, -⟩
    have := h1 p hp
    simpa only [hs, ha, decide_eq_true_eq] using this
  · intro hm
    obtain ⟨p, hp, hn, hs, ht⟩ := h2 _ hm
    refine ⟨p, hp, hn, ?_⟩
    split at hs
    · rename_i rq h'
      simp only [decide_eq_true_eq] at hs
      refine ⟨rq, h', hs, fun m d hd => ?_⟩
      simpa only [hd, decide_eq_true_eq] using ht
    · cases hs

/-- C78. The parameters which the client expects to be reported are exactly the documented ones, once each. -/
theorem C78_reported_set : parameterSet2.map (·.name) = reportedDoc ∧ reportedDoc.Nodup ∧ ∀ p ∈ parameterSet2, p ∈ all := by
  refine ⟨by decide +kernel, by decide +kernel, by decide +kernel⟩

example : ("Gain", 10, 4) ∈ allAddresses ∧ ("Mix REV", 61, 69) ∈ allAddresses ∧ ("Slot State X", 22) ∈ allControls := by decide +kernel

example : slotDoc[4]? = some ("X", 22, 0x38) := by decide
example : isSet (nrpn fRequest 5 6) = false := by decide

/-- C78. What the bidirectional protocol reports unasked is told apart, too: each of these messages is taken over by the parameter
meant, and by no other one. -/
theorem C78_reported (p q : Param) (hp : p ∈ parameterSet2) (hq : q ∈ all) (m d : List Nat) (hr : p.mapping.response = .one (.sysex m d))
    (hn : p.mapping.type = .numeric) (value : Nat) :
    ∃ taken m', parse q.mapping (.sysex m ([0, 0] ++ slice d 2 6 ++ [value / 128, value % 128])) = .ok (taken, m') ∧
      (taken = true ↔ p.name = q.name) ∧ (taken = true → m'.value = some (.num value)) := by
  have h : ∀ p ∈ parameterSet2, ∀ q ∈ all, (match p.mapping.response with
      | .one (.sysex m d) => decide (d.length = 6 ∧ (accepts q.mapping m (slice d 2 6) = true ↔ p.name = q.name) ∧
          (p.name = q.name → q.mapping.type = p.mapping.type))
      | _ => false) = true := by decide +kernel
  have ht := h p hp q hq
  simp only [hr, decide_eq_true_eq] at ht
  obtain ⟨hl, h1, h2⟩ := ht
  match d, hl with
  | [a, b, c, e, f, g], _ =>
    have hs : slice [a, b, c, e, f, g] 2 6 = [c, e, f, g] := rfl
    rw [hs] at h1 ⊢
    obtain ⟨M', g1, g2⟩ := parse_sysex q.mapping m ([0, 0] ++ [c, e, f, g] ++ [value / 128, value % 128]) (by simp) (two_part_all q hq)
    have hs' : slice ([0, 0] ++ [c, e, f, g] ++ [value / 128, value % 128]) 2 6 = [c, e, f, g] := rfl
    rw [hs'] at g1 g2
    refine ⟨_, M', g1, h1, fun hx => ?_⟩
    rw [g2 hx, h2 (h1.1 hx), hn]
    have : value / 128 * 128 + value % 128 = value := by omega
    simp [this]

example : all.length = 111 := by decide +kernel
example : answerNum 300 (nrpn fRequest 0x0a 0x04) = some (.sysex manufacturer [0, 0, 1, 0, 0x0a, 4, 2, 44]) := by decide
example : (all.filter (fun p => decide (p.mapping.request ≠ .none))).length = 75 := by decide +kernel

end PySwitch.Props
