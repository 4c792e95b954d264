import Verif.Lemmas.VirtualTouch

/-
The device's side of `Model/Stage.lean`: what it reports about one parameter.
-/
namespace PySwitch.Stage
open PySwitch PySwitch.Wire PySwitch.Kemper PySwitch.Kemper.Virtual PySwitch.Kemper.Synced PySwitch.Kemper.Synced.Spec
open PySwitch.Kemper.Setup hiding Ev initial

/-- All reports of the parameter have the value `n`. -/
def Says (page number : Nat) (out : List (List Nat)) (n : Nat) : Prop :=
  ∀ b ∈ out, Answering page number b → b = ans page number n

theorem _root_.PySwitch.Kemper.Synced.Silent.says {page number : Nat} {out : List (List Nat)} (h : Silent page number out) (n : Nat) : Says page number out n :=
  fun b hb ha => absurd ha (h b hb)

theorem Says.append {page number n : Nat} {a b : List (List Nat)} (ha : Says page number a n) (hb : Says page number b n) :
    Says page number (a ++ b) n := by
  intro x hx
  rcases List.mem_append.1 hx with h | h
  · exact ha x h
  · exact hb x h

theorem silent_nil {page number : Nat} : Silent page number [] := by simp [Silent]

/-- Messages which are sent for parameters. -/
theorem from_says {page number i n : Nat} {ps : List Param} (h : Good page number ps i n) {out : List (List Nat)}
    (hf : ∀ b ∈ out, ∃ q ∈ ps, b ∈ q.bytes) : Says page number out n := by
  intro b hb ha
  obtain ⟨q, hq, hbq⟩ := hf b hb
  obtain ⟨j, hj⟩ := List.mem_iff_getElem?.1 hq
  by_cases hji : j = i
  · subst hji
    rw [h.bytes hj] at hbq
    simpa using hbq
  · exact absurd ha (other_quiet h.p7 (h.others j q hji hj) b hbq)

theorem apply_from (p : Param) (set : Option Nat) (h : Hit) : ∀ b ∈ (p.apply set h).2, b ∈ (p.apply set h).1.bytes := by
  rcases (apply_spec p set h).2.1 with e | e
  · rw [e]; exact fun _ h => h
  · rw [e]; simp

theorem sendOf_from (ps : List Param) (key : Key) : ∀ b ∈ sendOf ps key, ∃ q ∈ ps, b ∈ q.bytes := by
  intro b hb
  unfold sendOf at hb
  cases hf : ps.find? (fun p => p.send == some key) with
  | none => rw [hf] at hb; simp at hb
  | some q => rw [hf] at hb; exact ⟨q, List.mem_of_find?_eq_some hf, by simpa using hb⟩

theorem default_from {set : Option Nat} {value : PVal} {ps : List Param} {m : List Nat} {pt : Nat} {r : List Param × List (List Nat)}
    (hr : parseDefault pt set value ps m = some r) : ∀ b ∈ r.2, ∃ q ∈ r.1, b ∈ q.bytes := by
  have hcreated : ∀ key : Key,
      let go := (ensure ps key).map fun p =>
        if p.send = some key then
          match p.hit pt m with
          | some h => p.apply set h
          | none => (p, [])
        else (p, [])
      ∀ b ∈ (go.map Prod.snd).flatten, ∃ q ∈ go.map Prod.fst, b ∈ q.bytes := by
    intro key go b hb
    simp only [List.mem_flatten, List.mem_map] at hb
    obtain ⟨l, ⟨x, hx, rfl⟩, hbx⟩ := hb
    refine ⟨x.1, List.mem_map_of_mem hx, ?_⟩
    simp only [go, List.mem_map] at hx
    obtain ⟨p, -, rfl⟩ := hx
    split at hbx
    · rename_i hs
      rw [if_pos hs]
      split at hbx
      · rename_i h hh
        exact apply_from _ _ _ _ hbx
      · simp at hbx
    · simp at hbx
  simp only [parseDefault] at hr
  split at hr
  · simp only [Option.some.injEq] at hr
    subst hr
    exact sendOf_from _ _
  · split at hr
    · simp only [Option.some.injEq] at hr
      subst hr
      exact hcreated _
    · split at hr
      · simp only [Option.some.injEq] at hr
        subst hr
        exact hcreated _
      · split at hr
        · simp only [Option.some.injEq] at hr
          subst hr
          exact hcreated _
        · simp at hr

theorem receive_from (d : Virtual.State) (ps : List Param) (now : Int) (m : List Nat) :
    ∀ b ∈ (Virtual.receive d ps now m).2.2, ∃ q ∈ (Virtual.receive d ps now m).2.1, b ∈ q.bytes := by
  unfold Virtual.receive
  dsimp only
  split
  · intro b hb
    simp only [Virtual.parse] at hb
    split at hb
    · simp at hb
    · dsimp only at hb
      split at hb
      · simp only [setMessages, List.mem_flatMap, List.mem_filter] at hb
        obtain ⟨q, ⟨h1, -⟩, h2⟩ := hb
        exact ⟨q, h1, h2⟩
      · simp at hb
  · unfold parseParams
    rcases parseEntries_spec d.productType d.parameterSet m ps with ⟨j, q, h, h1, -, -, h4⟩ | ⟨h1, -⟩
    · rw [h4]
      intro b hb
      have hlt := (List.getElem?_eq_some_iff.1 h1).1
      exact ⟨_, List.mem_set hlt _, apply_from _ _ _ b hb⟩
    · rw [h1]
      dsimp only
      split
      · rename_i r hr
        exact default_from hr
      · cases hd : parseDefault d.productType d.parameterSet (.str []) ps m with
        | none => simp
        | some r => simpa using default_from hd

/-! ### Callbacks -/

structure Kept (page number i n : Nat) (d d' : Device) (out : List (List Nat)) : Prop where
  good : Good page number d'.params i n
  grows : Grows d.params d'.params
  silent : Silent page number out
  proto : d'.proto = d.proto

theorem Kept.trans {page number i n : Nat} {a b c : Device} {o o' : List (List Nat)} (h : Kept page number i n a b o)
    (h' : Kept page number i n b c o') : Kept page number i n a c (o ++ o') :=
  ⟨h'.good, h.grows.trans h'.grows, h.silent.append h'.silent, h'.proto.trans h.proto⟩

/-- A value is set. -/
theorem setKey_cases (d : Device) (key : Key) (v : PVal) :
    d.setKey key v = (d, []) ∨ ∃ j p r, d.params[j]? = some p ∧ p.send = some key ∧ p.setValue d.proto.parameterSet v = some r ∧
      d.setKey key v = ({ d with params := d.params.set j r.1 }, r.2) := by
  unfold Device.setKey
  cases hi : d.params.findIdx? (fun p => p.send == some key) with
  | none => exact Or.inl rfl
  | some j =>
    dsimp only
    obtain ⟨hlt, hk, -⟩ := List.findIdx?_eq_some_iff_getElem.1 hi
    have hp : d.params[j]? = some d.params[j] := List.getElem?_eq_getElem hlt
    rw [hp]
    dsimp only [Option.bind_some]
    cases hs : d.params[j].setValue d.proto.parameterSet v with
    | none => exact Or.inl rfl
    | some r => exact Or.inr ⟨j, _, r, hp, by simpa using hk, hs, rfl⟩

theorem setKey_kept {page number i n : Nat} {d : Device} (h : Good page number d.params i n) {key : Key} (hk : key ≠ .nrpn [page, number])
    (v : PVal) : Kept page number i n d (d.setKey key v).1 (d.setKey key v).2 := by
  rcases setKey_cases d key v with e | ⟨j, p, r, h1, h2, h3, e⟩
  · rw [e]; exact ⟨h, .refl _, silent_nil, rfl⟩
  · rw [e]
    have hji : j ≠ i := by
      rintro rfl
      obtain ⟨q, q1, q2, -⟩ := h.param
      rw [h1] at q1
      cases q1
      rw [h2] at q2
      exact hk (Option.some.inj q2)
    have hap : p.apply d.proto.parameterSet (.set v) = r := by simp [Param.apply, h3]
    obtain ⟨a1, a2, -⟩ := apply_spec p d.proto.parameterSet (.set v)
    rw [hap] at a1 a2
    obtain ⟨n', g1, g2, -⟩ := good_set h j p r.1 h1 a1
    rw [g2 hji] at g1
    refine ⟨g1, grows_set _ _ _ _ h1 a1, ?_, rfl⟩
    rcases a2 with a2 | a2
    · show Silent page number r.2
      rw [a2]
      exact other_quiet h.p7 ((h.others j p hji h1).static a1)
    · show Silent page number r.2
      rw [a2]; exact silent_nil

theorem updateRig_kept {page number i n : Nat} (hp : page ≠ 0) {d : Device} (h : Good page number d.params i n) (date : List Nat) :
    Kept page number i n d (d.updateRig date).1 (d.updateRig date).2 := by
  have a := setKey_kept h (key := .nrpn [0, 1]) (by simp; omega) (text (rigName d.rigId))
  exact a.trans (setKey_kept a.good (key := .nrpn [0, 3]) (by simp; omega) _)

theorem setRigId_kept {page number i n : Nat} (hp : page ≠ 0) {d : Device} (h : Good page number d.params i n) (r : Nat) (date : List Nat) :
    Kept page number i n d (d.setRigId r date).1 (d.setRigId r date).2 := by
  have a := setKey_kept h (key := .cc 32 none) (by simp) (.num (r / 128))
  have b := setKey_kept a.good (key := .pc) (by simp) (.num (r % 128))
  exact (a.trans b).trans (updateRig_kept hp b.good date)

theorem callback_kept {page number i n : Nat} (hp : page ≠ 0) {d : Device} (h : Good page number d.params i n) (p : Param) (v : PVal)
    (date : List Nat) : Kept page number i n d (d.callback p v date).1 (d.callback p v date).2 := by
  have hrefl : ∀ d' : Device, d'.params = d.params → d'.proto = d.proto → Kept page number i n d d' [] :=
    fun d' e e' => ⟨by rw [e]; exact h, by rw [e]; exact .refl _, silent_nil, e'⟩
  unfold Device.callback
  split
  · rename_i c _ _
    split
    · unfold Device.onRig
      dsimp only
      split
      · have a := setRigId_kept hp (d := { d with presel := none }) h (d.presel.getD (d.rigId / 5) * 5 + (c - 50)) date
        split
        · have b := setKey_kept a.good (key := .nrpn [0, 11]) (by simp; omega) (.num 0)
          have c := a.trans b
          exact ⟨c.good, c.grows, c.silent, c.proto⟩
        · exact ⟨a.good, a.grows, by simpa using a.silent, a.proto⟩
      · exact hrefl _ rfl rfl
    · split
      · unfold Device.onBank
        split
        · exact setRigId_kept hp h _ date
        · exact hrefl _ rfl rfl
      · split
        · unfold Device.onBank
          split
          · exact setRigId_kept hp h _ date
          · exact hrefl _ rfl rfl
        · split
          · exact hrefl _ rfl rfl
          · exact hrefl _ rfl rfl
  · split
    · exact updateRig_kept hp h date
    · exact hrefl _ rfl rfl
  · exact hrefl _ rfl rfl

/-! ### Events -/

structure DevStep (page number i n n' : Nat) (d d' : Device) (out : List (List Nat)) : Prop where
  good : Good page number d'.params i n'
  says : Says page number out n'
  tail : d.proto.parameterSet = some 2 → d'.proto.parameterSet = some 2 → (n' = n ∧ Silent page number out) ∨ Tail page number out n'

theorem Kept.dev {page number i n : Nat} {d d' : Device} {out : List (List Nat)} (h : Kept page number i n d d' out) :
    DevStep page number i n n d d' out := ⟨h.good, h.silent.says n, fun _ _ => Or.inl ⟨rfl, h.silent⟩⟩

theorem ui_dev {page number i n : Nat} (hp : page ≠ 0) {d : Device} (h : Good page number d.params i n) (date : List Nat) (e : UiEvent) :
    ∃ n', DevStep page number i n n' d (d.ui date e).1 (d.ui date e).2 := by
  cases e with
  | rig r => exact ⟨n, (setRigId_kept hp h r date).dev⟩
  | value pg nr v =>
    simp only [Device.ui]
    cases hf : d.params.find? (fun p => p.send == some (.nrpn [pg, nr])) with
    | none => exact ⟨n, h, (Silent.says silent_nil n), fun _ _ => Or.inl ⟨rfl, silent_nil⟩⟩
    | some p =>
      dsimp only
      have hset : ∃ n', DevStep page number i n n' d (d.setKey (.nrpn [pg, nr]) v).1 (d.setKey (.nrpn [pg, nr]) v).2 := by
        rcases setKey_cases d (.nrpn [pg, nr]) v with e | ⟨j, p, r, h1, h2, h3, e⟩
        · rw [e]; exact ⟨n, h, (Silent.says silent_nil n), fun _ _ => Or.inl ⟨rfl, silent_nil⟩⟩
        · rw [e]
          obtain ⟨n', g1, -, g3⟩ := devSet_effect h d.proto.parameterSet j p h1 v r h3
          refine ⟨n', g1, from_says g1 fun b hb => ?_, fun e _ => g3 e⟩
          have hap : p.apply d.proto.parameterSet (.set v) = r := by simp [Param.apply, h3]
          have := apply_from p d.proto.parameterSet (.set v)
          rw [hap] at this
          exact ⟨r.1, List.mem_set (List.getElem?_eq_some_iff.1 h1).1 _, this b hb⟩
      obtain ⟨n', k⟩ := hset
      split
      · have c := callback_kept hp k.good p v date
        have hpr : (d.setKey (.nrpn [pg, nr]) v).1.proto = d.proto := by
          rcases setKey_cases d (.nrpn [pg, nr]) v with e | ⟨j, p, r, -, -, -, e⟩ <;> rw [e]
        refine ⟨n', c.good, (c.silent.says n').append k.says, fun e1 e2 => ?_⟩
        rcases k.tail e1 (by rw [hpr]; exact e1) with ⟨e3, e4⟩ | e3
        · exact Or.inl ⟨e3, c.silent.append e4⟩
        · exact Or.inr e3.prepend
      · exact ⟨n', k⟩

theorem receive_dev {page number i n : Nat} (hp : page ≠ 0) {d : Device} (h : Good page number d.params i n) (hd : d.proto.productType = 2)
    (now : Int) (date : List Nat) {b : List Nat} (he : Ended b) :
    ∃ n', DevStep page number i n n' d (d.receive now date b).1 (d.receive now date b).2 ∧
      (b.take 2 ≠ [176, 47] → ∀ v, Takes d.params i b v → n' = v) ∧ (Init b → Tail page number (d.receive now date b).2 n') := by
  unfold Device.receive
  split
  · rename_i h47
    refine ⟨n, ⟨h, (Silent.says silent_nil n), fun _ _ => Or.inl ⟨rfl, silent_nil⟩⟩, fun hx => absurd h47 hx, fun hi => ?_⟩
    obtain ⟨f, l, rfl, -⟩ := hi
    simp at h47
  · obtain ⟨-, n', r1, -, r3, r4, r5⟩ := receive_effect h d.proto hd now b he
    have hs := from_says r1 (receive_from d.proto d.params now b)
    dsimp only
    split
    · exact ⟨n', ⟨r1, hs, r3⟩, fun _ => r5, r4⟩
    · rename_i p v hf
      have c := callback_kept hp (d := ⟨(Virtual.receive d.proto d.params now b).1, (Virtual.receive d.proto d.params now b).2.1, d.presel, d.lastRig, d.tunerRunning⟩) r1 p v date
      refine ⟨n', ⟨c.good, (c.silent.says n').append hs, fun e1 e2 => ?_⟩, fun _ => r5, fun hi => (r4 hi).prepend⟩
      rw [c.proto] at e2
      rcases r3 e1 e2 with ⟨e3, e4⟩ | e3
      · exact Or.inl ⟨e3, c.silent.append e4⟩
      · exact Or.inr e3.prepend

theorem keepAlive_silent {page number : Nat} (t c : Nat) : Silent page number [keepAliveBytes t c] := by
  intro b hb ha
  simp only [List.mem_singleton] at hb
  subst hb
  have := answering_sysex (by simp [keepAliveBytes]) (by simp [keepAliveBytes]) ha
  simp [keepAliveBytes] at this

theorem update_silent {page number : Nat} (d : Device) (now : Int) : Silent page number (d.update now).2 := by
  simp only [Device.update, Virtual.update]
  split
  · split
    · split
      · exact keepAlive_silent _ _
      · exact silent_nil
    · split
      · exact keepAlive_silent _ _
      · exact silent_nil
  · exact silent_nil

theorem update_dev {page number i n : Nat} {d : Device} (h : Good page number d.params i n) (now : Int) :
    DevStep page number i n n d (d.update now).1 (d.update now).2 :=
  ⟨h, (update_silent d now).says n, fun _ _ => Or.inl ⟨rfl, update_silent d now⟩⟩

/-- A parameter which is sent with another key. -/
theorem sendOf_silent {page number i n : Nat} {ps : List Param} (h : Good page number ps i n) {key : Key} (hk : key ≠ .nrpn [page, number]) :
    Silent page number (sendOf ps key) := by
  unfold sendOf
  cases hf : ps.find? (fun p => p.send == some key) with
  | none => exact silent_nil
  | some q =>
    obtain ⟨j, hj⟩ := List.mem_iff_getElem?.1 (List.mem_of_find?_eq_some hf)
    have hs : q.send = some key := by simpa using List.find?_some hf
    have hji : j ≠ i := by
      rintro rfl
      obtain ⟨q', q1, q2, -⟩ := h.param
      rw [hj] at q1
      cases q1
      rw [hs] at q2
      exact hk (Option.some.inj q2)
    exact other_quiet h.p7 (h.others j q hji hj)

theorem tuner_silent {page number i n : Nat} (hp : page ≠ 125 ∧ page ≠ 124) {d : Device} (h : Good page number d.params i n) :
    Silent page number d.tuner.2 := by
  simp only [Device.tuner]
  split
  · exact (sendOf_silent h (by simp; omega)).append (sendOf_silent h (by simp; omega))
  · exact silent_nil

theorem tuner_dev {page number i n : Nat} (hp : page ≠ 125 ∧ page ≠ 124) {d : Device} (h : Good page number d.params i n) :
    DevStep page number i n n d d.tuner.1 d.tuner.2 :=
  ⟨h, (tuner_silent hp h).says n, fun _ _ => Or.inl ⟨rfl, tuner_silent hp h⟩⟩

/-! ### Not connected -/

theorem setKey_offline {d : Device} (h : d.proto.parameterSet = none) (key : Key) (v : PVal) :
    (d.setKey key v).2 = [] ∧ (d.setKey key v).1.proto = d.proto := by
  rcases setKey_cases d key v with e | ⟨j, p, r, -, -, h3, e⟩
  · rw [e]; exact ⟨rfl, rfl⟩
  · rw [e]
    refine ⟨?_, rfl⟩
    rw [h] at h3
    rcases setValue_spec p none v with ⟨e1, -⟩ | ⟨e1, -⟩ | ⟨e1, -⟩ <;> rw [e1] at h3 <;> simp at h3 <;> subst h3 <;> rfl

theorem setRigId_offline {d : Device} (h : d.proto.parameterSet = none) (r : Nat) (date : List Nat) :
    (d.setRigId r date).2 = [] ∧ (d.setRigId r date).1.proto = d.proto := by
  obtain ⟨a1, a2⟩ := setKey_offline h (.cc 32 none) (.num (r / 128))
  obtain ⟨b1, b2⟩ := setKey_offline (by rw [a2]; exact h) .pc (.num (r % 128)) (d := (d.setKey (.cc 32 none) (.num (r / 128))).1)
  obtain ⟨c1, c2⟩ := setKey_offline (by rw [b2, a2]; exact h) (.nrpn [0, 1])
    (text (rigName ((d.setKey (.cc 32 none) (.num (r / 128))).1.setKey .pc (.num (r % 128))).1.rigId))
    (d := ((d.setKey (.cc 32 none) (.num (r / 128))).1.setKey .pc (.num (r % 128))).1)
  obtain ⟨e1, e2⟩ := setKey_offline (by rw [c2, b2, a2]; exact h) (.nrpn [0, 3]) (.str date)
    (d := (((d.setKey (.cc 32 none) (.num (r / 128))).1.setKey .pc (.num (r % 128))).1.setKey (.nrpn [0, 1])
    (text (rigName ((d.setKey (.cc 32 none) (.num (r / 128))).1.setKey .pc (.num (r % 128))).1.rigId))).1)
  simp only [Device.setRigId, Device.updateRig]
  exact ⟨by rw [a1, b1, c1, e1]; rfl, by rw [e2, c2, b2, a2]⟩

theorem updateRig_offline {d : Device} (h : d.proto.parameterSet = none) (date : List Nat) :
    (d.updateRig date).2 = [] ∧ (d.updateRig date).1.proto = d.proto := by
  obtain ⟨c1, c2⟩ := setKey_offline h (.nrpn [0, 1]) (text (rigName d.rigId))
  obtain ⟨e1, e2⟩ := setKey_offline (by rw [c2]; exact h) (.nrpn [0, 3]) (.str date) (d := (d.setKey (.nrpn [0, 1]) (text (rigName d.rigId))).1)
  simp only [Device.updateRig]
  exact ⟨by rw [c1, e1]; rfl, by rw [e2, c2]⟩

theorem callback_offline {d : Device} (h : d.proto.parameterSet = none) (p : Param) (v : PVal) (date : List Nat) :
    (d.callback p v date).2 = [] ∧ (d.callback p v date).1.proto = d.proto := by
  unfold Device.callback
  split
  · rename_i c _ _
    split
    · unfold Device.onRig
      dsimp only
      split
      · obtain ⟨a1, a2⟩ := setRigId_offline (d := { d with presel := none }) h (d.presel.getD (d.rigId / 5) * 5 + (c - 50)) date
        split
        · obtain ⟨b1, b2⟩ := setKey_offline (by rw [a2]; exact h) (.nrpn [0, 11]) (.num 0)
            (d := (Device.setRigId { d with presel := none } (d.presel.getD (d.rigId / 5) * 5 + (c - 50)) date).1)
          exact ⟨by rw [a1, b1]; rfl, by rw [b2, a2]⟩
        · exact ⟨by rw [a1]; rfl, a2⟩
      · exact ⟨rfl, rfl⟩
    · split
      · unfold Device.onBank
        split
        · exact setRigId_offline h _ date
        · exact ⟨rfl, rfl⟩
      · split
        · unfold Device.onBank
          split
          · exact setRigId_offline h _ date
          · exact ⟨rfl, rfl⟩
        · split
          · exact ⟨rfl, rfl⟩
          · exact ⟨rfl, rfl⟩
  · split
    · exact updateRig_offline h date
    · exact ⟨rfl, rfl⟩
  · exact ⟨rfl, rfl⟩

theorem ui_offline {d : Device} (h : d.proto.parameterSet = none) (date : List Nat) (e : UiEvent) :
    (d.ui date e).2 = [] ∧ (d.ui date e).1.proto = d.proto := by
  cases e with
  | rig r => exact setRigId_offline h r date
  | value pg nr v =>
    simp only [Device.ui]
    split
    · exact ⟨rfl, rfl⟩
    · rename_i p hf
      obtain ⟨a1, a2⟩ := setKey_offline h (.nrpn [pg, nr]) v
      split
      · obtain ⟨b1, b2⟩ := callback_offline (by rw [a2]; exact h) p v date (d := (d.setKey (.nrpn [pg, nr]) v).1)
        exact ⟨by rw [a1, b1]; rfl, by rw [b2, a2]⟩
      · exact ⟨a1, a2⟩

theorem apply_offline (p : Param) (v : PVal) : (p.apply none (.set v)).2 = [] := by
  simp only [Param.apply]
  rcases setValue_spec p none v with ⟨e1, -⟩ | ⟨e1, -⟩ | ⟨e1, -⟩ <;> rw [e1] <;> rfl

theorem hit_control {q : Param} {c v : Nat} {h : Hit} (hh : q.hit 2 [176, c, v] = some h) : ∃ w, h = .set w := by
  unfold Param.hit at hh
  obtain ⟨k, -, hk⟩ := List.exists_of_findSome?_eq_some hh
  cases k with
  | nrpn data =>
    simp only [hitKey] at hk
    split at hk
    · rename_i e
      rw [show 8 + data.length = (7 + data.length) + 1 by omega] at e
      simp at e
    · split at hk
      · exact ⟨_, (Option.some.inj hk).symm⟩
      · simp at hk
  | cc c' s => simp only [hitKey] at hk; split at hk <;> simp at hk; exact ⟨_, hk.symm⟩
  | pc => simp [hitKey] at hk

/-- A control change for the device which is not connected. -/
theorem receive_offline {d : Device} (h : d.proto.parameterSet = none) (hd : d.proto.productType = 2) (now : Int) (date : List Nat) (c v : Nat) :
    (d.receive now date [176, c, v]).2 = [] ∧ (d.receive now date [176, c, v]).1.proto = d.proto := by
  unfold Device.receive
  split
  · exact ⟨rfl, rfl⟩
  · have hr : (Virtual.receive d.proto d.params now [176, c, v]).2.2 = [] ∧
        (Virtual.receive d.proto d.params now [176, c, v]).1 = d.proto := by
      have hp : Virtual.parse (setMessages d.params) d.proto now [176, c, v] = (d.proto, [], false) := by simp [Virtual.parse]
      simp only [Virtual.receive, hp, Bool.false_eq_true, if_false, hd, h]
      refine ⟨?_, trivial⟩
      unfold parseParams
      rcases parseEntries_spec 2 none [176, c, v] d.params with ⟨j, q, x, -, -, h3, h4⟩ | ⟨h1, -⟩
      · rw [h4]
        obtain ⟨w, rfl⟩ := hit_control h3
        exact apply_offline q w
      · rw [h1]
        have e1 : ∀ x, ¬ List.take 8 [176, c, v] = [240, 0, 32, 51, 2, 127, x, 0] := by simp
        simp only [parseDefault, if_neg (e1 _)]
        simp
        intro p hp'
        split
        · split
          · rename_i hh
            obtain ⟨w, rfl⟩ := hit_control hh
            exact apply_offline p w
          · rfl
        · rfl
    dsimp only
    split
    · exact hr
    · rename_i p w hf
      obtain ⟨a1, a2⟩ := callback_offline (d := ⟨(Virtual.receive d.proto d.params now [176, c, v]).1,
        (Virtual.receive d.proto d.params now [176, c, v]).2.1, d.presel, d.lastRig, d.tunerRunning⟩) (by rw [hr.2]; exact h) p w date
      exact ⟨by rw [a1, hr.1]; rfl, by rw [a2]; exact hr.2⟩

end PySwitch.Stage
