import Verif.Spec.VirtualSetup
import Verif.Lemmas.VirtualParams

namespace PySwitch.Kemper.Setup
open PySwitch.Wire PySwitch.Mapping PySwitch.Kemper.Virtual PySwitch.Kemper.Synced
open PySwitch.Kemper.Setup.Spec

/-! ### The parameters keep their form -/

/-- The value is left out. -/
def zero : PVal → PVal
  | .num _ => .num 0
  | .str _ => .str []

def skel (p : Param) : Param := { p with value := zero p.value }

def T : List Param := (table []).map skel

theorem zero_kind {v w : PVal} : zero v = zero w ↔ kind v = kind w := by
  cases v <;> cases w <;> simp [zero, kind]

/-- A parameter created for an unknown message. -/
def Extra (e : Param) : Prop := ∃ key, e.receive = [key] ∧ e.send = some key ∧ e.sets = []

structure Shape (ps : List Param) : Prop where
  base : (ps.map skel).take 44 = T
  extra : ∀ (i : Nat) e, 44 ≤ i → ps[i]? = some e → Extra e

theorem T_length : T.length = 44 := by decide

theorem Shape.at {ps : List Param} (h : Shape ps) {i : Nat} (hi : i < 44) :
    ∃ q, ps[i]? = some q ∧ some (skel q) = T[i]? := by
  have h1 : ((ps.map skel).take 44)[i]? = T[i]? := by rw [h.base]
  rw [List.getElem?_take, if_pos hi, List.getElem?_map] at h1
  have : i < T.length := by rw [T_length]; exact hi
  rw [List.getElem?_eq_getElem this] at h1 ⊢
  cases hq : ps[i]? with
  | none => rw [hq] at h1; simp at h1
  | some q => rw [hq] at h1; exact ⟨q, rfl, by simpa using h1⟩

theorem Shape.set {ps : List Param} (h : Shape ps) {i : Nat} {q q' : Param} (hq : ps[i]? = some q) (hs : skel q' = skel q)
    : Shape (ps.set i q') := by
  have hlt := (List.getElem?_eq_some_iff.1 hq).1
  constructor
  · rw [List.map_set, hs, ← h.base]
    congr 1
    apply List.ext_getElem?
    intro j
    by_cases hj : i = j
    · subst hj
      rw [List.getElem?_set_self (by simpa using hlt), List.getElem?_map, hq]
      rfl
    · rw [List.getElem?_set_ne hj]
  · intro j e hj he
    by_cases hij : i = j
    · subst hij
      rw [List.getElem?_set_self hlt] at he
      simp only [Option.some.injEq] at he
      subst he
      obtain ⟨key, e1, e2, e3⟩ := h.extra i q hj hq
      have := congrArg Param.receive hs
      have h2 := congrArg Param.send hs
      have h3 := congrArg Param.sets hs
      simp only [skel] at this h2 h3
      exact ⟨key, by rw [this, e1], by rw [h2, e2], by rw [h3, e3]⟩
    · rw [List.getElem?_set_ne hij] at he
      exact h.extra j e hj he

/-- The value of a parameter. -/
def val (ps : List Param) (i : Nat) : Option PVal := (ps[i]?).map Param.value

theorem val_set_self {ps : List Param} {i : Nat} {q q' : Param} (hq : ps[i]? = some q) : val (ps.set i q') i = some q'.value := by
  simp [val, (List.getElem?_eq_some_iff.1 hq).1]

theorem val_set_ne {ps : List Param} {i j : Nat} {q' : Param} (h : i ≠ j) : val (ps.set i q') j = val ps j := by
  simp [val, h]

/-- The position of the parameter which is sent with a key. -/
theorem Shape.sent {ps : List Param} (h : Shape ps) {key : Key} {i : Nat}
    (hi : T.findIdx? (fun p => p.send == some key) = some i) :
    i < 44 ∧ ps.findIdx? (fun p => p.send == some key) = some i ∧
    ∃ q, ps[i]? = some q ∧ q.send = some key ∧ some (skel q) = T[i]? ∧ ps.find? (fun p => p.send == some key) = some q := by
  have hlt : i < 44 := by
    have := (List.findIdx?_eq_some_iff_getElem.1 hi).1
    rw [T_length] at this
    exact this
  obtain ⟨q, hq, hs⟩ := h.at hlt
  have hf : ps.findIdx? (fun p => p.send == some key) = some i := by
    have : ps.findIdx? (fun p => p.send == some key) = (ps.map skel).findIdx? (fun p => p.send == some key) := by
      rw [List.findIdx?_map]; rfl
    rw [this, ← List.take_append_drop 44 (ps.map skel), h.base, List.findIdx?_append, hi]
    rfl
  obtain ⟨g1, g2, g3⟩ := List.findIdx?_eq_some_iff_getElem.1 hf
  have hq' : ps[i] = q := by
    rw [List.getElem?_eq_getElem g1] at hq
    simpa using hq
  refine ⟨hlt, hf, q, hq, by rw [hq'] at g2; simpa using g2, hs, ?_⟩
  rw [List.find?_eq_some_iff_getElem]
  refine ⟨by rw [hq'] at g2; exact g2, i, g1, hq', ?_⟩
  intro j hj
  have := g3 j hj
  simpa using this

theorem num_eq {d : Device} (h : Shape d.params) {key : Key} {i n : Nat}
    (hi : T.findIdx? (fun p => p.send == some key) = some i) (hv : val d.params i = some (.num n)) : d.num key = n := by
  obtain ⟨-, -, q, hq, -, -, hf⟩ := h.sent hi
  simp only [Device.num, hf]
  simp only [val, hq, Option.map_some, Option.some.injEq] at hv
  obtain ⟨a, b, c, e, f⟩ := q
  simp only at hv
  subst hv
  rfl

/-- What setting a parameter does. -/
theorem setKey_eq {d : Device} (h : Shape d.params) {key : Key} {i : Nat} {v : PVal}
    (hi : T.findIdx? (fun p => p.send == some key) = some i) {t : Param} (ht : T[i]? = some t) (hk : zero v = t.value) :
    ∃ q, d.params[i]? = some q ∧ skel q = t ∧ q.send = some key ∧
      d.setKey key v = ({ d with params := d.params.set i { q with value := v } },
        if q.noBuffer = false ∧ q.value = v then []
        else if d.proto.parameterSet.any (fun s => q.sets.contains s) then ({ q with value := v } : Param).bytes else []) := by
  obtain ⟨-, hf, q, hq, hqs, hs, -⟩ := h.sent hi
  rw [ht] at hs
  simp only [Option.some.injEq] at hs
  refine ⟨q, hq, hs, hqs, ?_⟩
  have hkind : kind v = kind q.value := by
    rw [← zero_kind, hk, ← hs]
    rfl
  simp only [Device.setKey, hf, hq, Option.bind_some, Param.setValue]
  by_cases hb : q.noBuffer = false ∧ q.value = v
  · rw [if_pos hb, if_pos hb]
    simp only
    congr 2
    congr 1
    rw [← hb.2]
  · rw [if_neg hb, if_neg hb]
    cases hqv : q.value <;> cases v <;> rw [hqv] at hkind <;> simp [kind] at hkind ⊢

theorem Shape.setKey {d : Device} (h : Shape d.params) {key : Key} {i : Nat} {v : PVal}
    (hi : T.findIdx? (fun p => p.send == some key) = some i) {t : Param} (ht : T[i]? = some t) (hk : zero v = t.value) :
    Shape (d.setKey key v).1.params ∧ val (d.setKey key v).1.params i = some v ∧
    (∀ j, i ≠ j → val (d.setKey key v).1.params j = val d.params j) ∧
    (d.setKey key v).1 = { d with params := (d.setKey key v).1.params } := by
  obtain ⟨q, h1, h2, -, h3⟩ := setKey_eq (d := d) h hi ht hk
  rw [h3]
  refine ⟨h.set h1 ?_, val_set_self h1, fun j hj => val_set_ne hj, rfl⟩
  rw [← h2] at hk
  simp only [skel] at hk ⊢
  rw [hk]

/-! ### Sending -/

/-- A SysEx message. -/
def Sx (bs : List (List Nat)) : Prop := ∀ b ∈ bs, ∃ r, b = 240 :: 0 :: r

theorem Sx.nil : Sx [] := by simp [Sx]

theorem Sx.append {a b : List (List Nat)} (ha : Sx a) (hb : Sx b) : Sx (a ++ b) := by
  intro x hx
  rcases List.mem_append.1 hx with h | h
  · exact ha x h
  · exact hb x h

theorem bytes_sx {p : Param} {data : List Nat} (h : p.send = some (.nrpn data)) : Sx p.bytes := by
  intro b hb
  simp only [Param.bytes, h, List.mem_singleton] at hb
  subst hb
  exact ⟨_, rfl⟩

theorem setKey_sx {d : Device} {data : List Nat} {v : PVal} : Sx (d.setKey (.nrpn data) v).2 := by
  unfold Device.setKey
  split
  · exact Sx.nil
  · rename_i i hi
    split
    · exact Sx.nil
    · rename_i r hr
      simp only
      cases hp : d.params[i]? with
      | none => rw [hp] at hr; simp at hr
      | some p =>
        rw [hp] at hr
        simp only [Option.bind_some] at hr
        have hsend : p.send = some (.nrpn data) := by
          obtain ⟨g1, g2, -⟩ := List.findIdx?_eq_some_iff_getElem.1 hi
          rw [List.getElem?_eq_getElem g1] at hp
          simp only [Option.some.injEq] at hp
          rw [hp] at g2
          simpa using g2
        rcases setValue_spec p d.proto.parameterSet v with ⟨h1, -⟩ | ⟨h1, -⟩ | ⟨h1, -⟩
        · rw [h1] at hr; simp at hr
        · rw [h1] at hr; simp only [Option.some.injEq] at hr; rw [← hr]; exact Sx.nil
        · rw [h1] at hr
          simp only [Option.some.injEq] at hr
          rw [← hr]
          simp only
          split
          · exact bytes_sx hsend
          · exact Sx.nil

/-- What a use of a callback leaves alone: everything but the name and the date of the rig. -/
structure Same (d d' : Device) : Prop where
  shape : Shape d'.params
  vals : ∀ i, i ≠ 17 → i ≠ 27 → val d'.params i = val d.params i
  presel : d'.presel = d.presel
  proto : d'.proto = d.proto

theorem updateRig_same {d : Device} (h : Shape d.params) (date : List Nat) :
    Same d (d.updateRig date).1 ∧ Sx (d.updateRig date).2 ∧
    val (d.updateRig date).1.params 17 = some (text (rigName d.rigId)) ∧ (d.updateRig date).1.lastRig = d.lastRig := by
  have a := Shape.setKey (d := d) h (key := .nrpn [0, 1]) (v := text (rigName d.rigId)) (i := 17) (by decide)
    (t := skel (nrpn 0 1 (text "Rig Name") [] [2, 3, 4])) rfl rfl
  obtain ⟨a1, a2, a3, a4⟩ := a
  have b := Shape.setKey (d := (d.setKey (.nrpn [0, 1]) (text (rigName d.rigId))).1) a1 (key := .nrpn [0, 3]) (v := .str date)
    (i := 27) (by decide) (t := skel (nrpn 0 3 (.str []))) rfl rfl
  obtain ⟨b1, b2, b3, b4⟩ := b
  refine ⟨⟨b1, ?_, ?_, ?_⟩, setKey_sx.append setKey_sx, ?_, ?_⟩
  · intro i h17 h27
    exact (b3 i (Ne.symm h27)).trans (a3 i (Ne.symm h17))
  · show ((d.setKey (.nrpn [0, 1]) (text (rigName d.rigId))).1.setKey (.nrpn [0, 3]) (.str date)).1.presel = _
    rw [b4, a4]
  · show ((d.setKey (.nrpn [0, 1]) (text (rigName d.rigId))).1.setKey (.nrpn [0, 3]) (.str date)).1.proto = _
    rw [b4, a4]
  · exact (b3 17 (by decide)).trans a2
  · show ((d.setKey (.nrpn [0, 1]) (text (rigName d.rigId))).1.setKey (.nrpn [0, 3]) (.str date)).1.lastRig = _
    rw [b4, a4]

/-- The values which make up the rig. -/
structure RigIs (d : Device) (n : Nat) : Prop where
  hi : val d.params 18 = some (.num (n / 128))
  lo : val d.params 19 = some (.num (n % 128))

theorem RigIs.id {d : Device} {n : Nat} (h : RigIs d n) (hs : Shape d.params) : d.rigId = n := by
  have h1 := num_eq hs (key := .cc 32 none) (i := 18) (by decide) h.hi
  have h2 := num_eq hs (key := .pc) (i := 19) (by decide) h.lo
  simp only [Device.rigId, h1, h2]
  omega

/-- Changes of the rig are sent. -/
def active (d : Device) : Bool := d.proto.parameterSet.any fun s => allSets.contains s

/-- The messages for the rig. -/
def pair (n : Nat) : List (List Nat) := [[176, 32, n / 128], [192, n % 128]]

structure RigSet (d : Device) (n : Nat) (d' : Device) (out : List (List Nat)) : Prop where
  shape : Shape d'.params
  rig : RigIs d' n
  vals : ∀ i, i ≠ 17 → i ≠ 18 → i ≠ 19 → i ≠ 27 → val d'.params i = val d.params i
  presel : d'.presel = d.presel
  proto : d'.proto = d.proto
  name : val d'.params 17 = some (text (rigName n))
  lastRig : d'.lastRig = d.lastRig
  out : ∃ sx, Sx sx ∧ out = (if active d then pair n else []) ++ sx

theorem setRigId_eq {d : Device} (h : Shape d.params) (n : Nat) (date : List Nat) :
    RigSet d n (d.setRigId n date).1 (d.setRigId n date).2 := by
  have a := Shape.setKey (d := d) h (key := .cc 32 none) (v := .num (n / 128)) (i := 18) (by decide)
    (t := { send := some (.cc 32 none), receive := [.cc 32 none], value := .num 0, sets := allSets, noBuffer := true }) rfl rfl
  obtain ⟨a1, a2, a3, a4⟩ := a
  obtain ⟨qa, a5, a6, a7, a8⟩ := setKey_eq (d := d) h (key := .cc 32 none) (v := .num (n / 128)) (i := 18) (by decide)
    (t := { send := some (.cc 32 none), receive := [.cc 32 none], value := .num 0, sets := allSets, noBuffer := true }) rfl rfl
  have oa : (d.setKey (.cc 32 none) (.num (n / 128))).2 = if active d then [[176, 32, n / 128]] else [] := by
    have e1 : qa.noBuffer = true := congrArg Param.noBuffer a6
    have e2 : qa.sets = allSets := congrArg Param.sets a6
    rw [a8]
    simp only [e1, e2]
    rw [if_neg (by simp)]
    simp only [active, Param.bytes, a7]
    rfl
  generalize hA : d.setKey (.cc 32 none) (.num (n / 128)) = A at a1 a2 a3 a4 oa
  have b := Shape.setKey (d := A.1) a1 (key := .pc) (v := .num (n % 128)) (i := 19) (by decide)
    (t := { send := some .pc, receive := [.pc], value := .num 0, sets := allSets, noBuffer := true }) rfl rfl
  obtain ⟨b1, b2, b3, b4⟩ := b
  obtain ⟨qb, b5, b6, b7, b8⟩ := setKey_eq (d := A.1) a1 (key := .pc) (v := .num (n % 128)) (i := 19) (by decide)
    (t := { send := some .pc, receive := [.pc], value := .num 0, sets := allSets, noBuffer := true }) rfl rfl
  have hpa : A.1.proto = d.proto := by rw [a4]
  have ob : (A.1.setKey .pc (.num (n % 128))).2 = if active d then [[192, n % 128]] else [] := by
    have e1 : qb.noBuffer = true := congrArg Param.noBuffer b6
    have e2 : qb.sets = allSets := congrArg Param.sets b6
    rw [b8]
    simp only [e1, e2]
    rw [if_neg (by simp)]
    simp only [active, Param.bytes, b7, hpa]
    rfl
  generalize hB : A.1.setKey .pc (.num (n % 128)) = B at b1 b2 b3 b4 ob
  obtain ⟨c1, c2, c3, c4⟩ := updateRig_same (d := B.1) b1 date
  have hr : RigIs B.1 n := ⟨by rw [b3 18 (by decide), a2], b2⟩
  have hset : d.setRigId n date = ((B.1.updateRig date).1, A.2 ++ B.2 ++ (B.1.updateRig date).2) := by
    simp only [Device.setRigId, hA, hB]
  have hpb : B.1.proto = A.1.proto := by rw [b4]
  rw [hset]
  refine ⟨c1.shape, ⟨?_, ?_⟩, ?_, ?_, ?_, ?_, ?_, (B.1.updateRig date).2, c2, ?_⟩
  · rw [c1.vals 18 (by decide) (by decide)]; exact hr.hi
  · rw [c1.vals 19 (by decide) (by decide)]; exact hr.lo
  · intro i h17 h18 h19 h27
    rw [c1.vals i h17 h27, b3 i (Ne.symm h19), a3 i (Ne.symm h18)]
  · rw [c1.presel, b4, a4]
  · rw [c1.proto, hpb, hpa]
  · rw [c3, hr.id b1]
  · rw [c4, b4, a4]
  · simp only [oa, ob]
    cases active d <;> rfl

theorem raise_eq (r : Int) : raise r = if r < 0 then r % 625 else r := by
  induction r using raise.induct with
  | case1 r h ih =>
    rw [raise, if_pos h, ih, if_pos h]
    split <;> omega
  | case2 r h => rw [raise, if_neg h, if_neg h]

theorem lower_eq (r : Int) (hr : 0 ≤ r) : lower r = r % 625 := by
  induction r using lower.induct with
  | case1 r h ih =>
    rw [lower, if_pos h, ih (by omega)]
    omega
  | case2 r h => rw [lower, if_neg h]; omega

theorem wrap_eq (n : Nat) (up : Bool) :
    (lower (raise ((n : Int) + if up then 5 else -5))).toNat = if up then (n + 5) % 625 else (n + 620) % 625 := by
  rw [raise_eq]
  cases up
  · simp only [Bool.false_eq_true, if_false]
    split
    · rw [lower_eq _ (by omega)]; omega
    · rw [lower_eq _ (by omega)]; omega
  · simp only [if_true]
    rw [if_neg (by omega), lower_eq _ (by omega)]
    omega

/-! ### Messages -/

theorem hit_cc {q : Param} {c v : Nat} : q.hit 2 [176, c, v] =
    q.receive.findSome? fun
      | .cc c' scale => if c = c' then some (.set (.num (v * scale.getD 1))) else none
      | _ => none := by
  unfold Param.hit
  congr 1
  funext k
  cases k with
  | nrpn data =>
    have : 8 + data.length = (data.length + 7) + 1 := by omega
    simp [hitKey, this]
  | cc c' s => simp [hitKey]
  | pc => simp [hitKey]

theorem hit_pc {q : Param} {v : Nat} : q.hit 2 [192, v] =
    q.receive.findSome? fun
      | .pc => some (.set (.num v))
      | _ => none := by
  unfold Param.hit
  congr 1
  funext k
  cases k with
  | nrpn data =>
    have : 8 + data.length = (data.length + 7) + 1 := by omega
    simp [hitKey, this]
  | cc c' s => simp [hitKey]
  | pc => simp [hitKey]

/-- Which controls a parameter listens to. -/
def ccs (q : Param) : List Nat := q.receive.filterMap fun
  | .cc c _ => some c
  | _ => none

theorem hit_cc_isSome {q : Param} {c v : Nat} : (q.hit 2 [176, c, v]).isSome = (ccs q).contains c := by
  rw [hit_cc, ccs]
  induction q.receive with
  | nil => rfl
  | cons k ks ih =>
    cases k with
    | nrpn data => simpa using ih
    | pc => simpa using ih
    | cc c' s =>
      simp only [List.findSome?_cons, List.filterMap_cons]
      by_cases h : c = c'
      · simp [h]
      · simp [h]
        simpa using ih

/-- A SysEx message which is used belongs to an NRPN parameter. -/
theorem hit_sysex {q : Param} {m : List Nat} (hm : m.head? = some 240) {h : Hit} (hh : q.hit 2 m = some h) :
    ∃ data, .nrpn data ∈ q.receive := by
  unfold Param.hit at hh
  obtain ⟨k, hk, hk'⟩ := List.exists_of_findSome?_eq_some hh
  cases k with
  | nrpn data => exact ⟨data, hk⟩
  | cc c s =>
    match m, hm with
    | x :: m, hm =>
      simp only [List.head?_cons, Option.some.injEq] at hm
      subst hm
      simp [hitKey] at hk'
  | pc => simp [hitKey, hm] at hk'

theorem request_sysex {q : Param} {m : List Nat} (hh : q.hit 2 m = some .request) : ∃ data, .nrpn data ∈ q.receive := by
  unfold Param.hit at hh
  obtain ⟨k, hk, hk'⟩ := List.exists_of_findSome?_eq_some hh
  cases k with
  | nrpn data => exact ⟨data, hk⟩
  | cc c s => simp only [hitKey] at hk'; split at hk' <;> simp at hk'
  | pc => simp only [hitKey] at hk'; split at hk' <;> simp at hk'

theorem skel_apply (p : Param) (set : Option Nat) (h : Hit) : skel (p.apply set h).1 = skel p := by
  cases h with
  | request => rfl
  | set v =>
    simp only [Param.apply]
    rcases setValue_spec p set v with ⟨h1, -⟩ | ⟨h1, -⟩ | ⟨h1, h2⟩
    · rw [h1]; rfl
    · rw [h1]; rfl
    · rw [h1]
      simp only [Option.getD_some, skel]
      rw [zero_kind.2 h2]

theorem Shape.ensure {ps : List Param} (h : Shape ps) (key : Key) :
    Shape (ensure ps key) ∧ ∀ i, i < 44 → (Virtual.ensure ps key)[i]? = ps[i]? := by
  have hl : 44 ≤ ps.length := by
    have := congrArg List.length h.base
    rw [T_length] at this
    simp at this
    omega
  unfold Virtual.ensure
  split
  · exact ⟨h, fun _ _ => rfl⟩
  · refine ⟨⟨?_, ?_⟩, ?_⟩
    · rw [List.map_append, List.take_append_of_le_length (by simpa using hl)]
      exact h.base
    · intro i e hi he
      by_cases hlt : i < ps.length
      · rw [List.getElem?_append_left hlt] at he
        exact h.extra i e hi he
      · rw [List.getElem?_append_right (by omega)] at he
        have he' := List.mem_of_getElem? he
        simp only [List.mem_singleton] at he'
        subst he'
        exact ⟨key, rfl, rfl, rfl⟩
    · intro i hi
      rw [List.getElem?_append_left (by omega)]

theorem sendOf_sx (ps : List Param) (data : List Nat) : Sx (sendOf ps (.nrpn data)) := by
  unfold sendOf
  cases hf : ps.find? (fun p => p.send == some (.nrpn data)) with
  | none => exact Sx.nil
  | some q =>
    have := List.find?_some hf
    exact bytes_sx (by simpa using this)

theorem extra_apply {e : Param} (he : Extra e) {set : Option Nat} {m : List Nat} {h : Hit} (hh : e.hit 2 m = some h) :
    Sx (e.apply set h).2 := by
  obtain ⟨key, e1, e2, e3⟩ := he
  cases h with
  | request =>
    obtain ⟨data, hd⟩ := request_sysex hh
    rw [e1] at hd
    simp only [List.mem_singleton] at hd
    exact bytes_sx (data := data) (by rw [e2, hd])
  | set v =>
    simp only [Param.apply]
    rcases setValue_spec e set v with ⟨h1, -⟩ | ⟨h1, -⟩ | ⟨h1, h2⟩
    · rw [h1]; exact Sx.nil
    · rw [h1]; exact Sx.nil
    · rw [h1]
      simp only [Option.getD_some, e3]
      rw [if_neg (by simp)]
      exact Sx.nil

/-- Only parameters which have been created. -/
structure Created (ps ps' : List Param) (out : List (List Nat)) : Prop where
  shape : Shape ps'
  base : ∀ i, i < 44 → ps'[i]? = ps[i]?
  out : Sx out

theorem created {ps : List Param} (h : Shape ps) (set : Option Nat) (m : List Nat) (hno : ∀ q ∈ ps, q.hit 2 m = none) (key : Key) :
    let go := (ensure ps key).map fun p =>
      if p.send = some key then
        match p.hit 2 m with
        | some h => p.apply set h
        | none => (p, [])
      else (p, [])
    Created ps (go.map Prod.fst) (go.map Prod.snd).flatten := by
  intro go
  obtain ⟨g1, g2⟩ := h.ensure key
  have hin : ∀ (i : Nat) p, (Virtual.ensure ps key)[i]? = some p → i < 44 → p.hit 2 m = none := by
    intro i p hp hi
    rw [g2 i hi] at hp
    exact hno p (List.mem_of_getElem? hp)
  have hgo : ∀ i : Nat, go[i]? = ((Virtual.ensure ps key)[i]?).map fun p =>
      if p.send = some key then
        match p.hit 2 m with
        | some h => p.apply set h
        | none => (p, [])
      else (p, []) := by
    intro i; exact List.getElem?_map
  have hskel : ∀ p : Param, skel (if p.send = some key then
        match p.hit 2 m with
        | some h => p.apply set h
        | none => (p, [])
      else (p, [])).1 = skel p := by
    intro p
    split
    · split
      · exact skel_apply _ _ _
      · rfl
    · rfl
  have hbase : ∀ i, i < 44 → (go.map Prod.fst)[i]? = ps[i]? := by
    intro i hi
    rw [List.getElem?_map, hgo]
    cases hp : (Virtual.ensure ps key)[i]? with
    | none => rw [← g2 i hi, hp]; rfl
    | some p =>
      simp only [Option.map_some, hin i p hp hi]
      rw [← g2 i hi, hp]
      simp
  refine ⟨⟨?_, ?_⟩, hbase, ?_⟩
  · have : (go.map Prod.fst).map skel = (Virtual.ensure ps key).map skel := by
      simp only [go, List.map_map]
      apply List.map_congr_left
      intro p _
      exact hskel p
    rw [this]
    exact g1.base
  · intro i e hi he
    rw [List.getElem?_map, hgo] at he
    cases hp : (Virtual.ensure ps key)[i]? with
    | none => rw [hp] at he; simp at he
    | some p =>
      rw [hp] at he
      simp only [Option.map_some, Option.some.injEq] at he
      obtain ⟨k, e1, e2, e3⟩ := g1.extra i p hi hp
      have hs := hskel p
      rw [he] at hs
      have h1 := congrArg Param.receive hs
      have h2 := congrArg Param.send hs
      have h3 := congrArg Param.sets hs
      simp only [skel] at h1 h2 h3
      exact ⟨k, by rw [h1, e1], by rw [h2, e2], by rw [h3, e3]⟩
  · intro b hb
    simp only [List.mem_flatten, List.mem_map] at hb
    obtain ⟨l, ⟨r, hr, rfl⟩, hb⟩ := hb
    obtain ⟨i, hi⟩ := List.mem_iff_getElem?.1 hr
    rw [hgo] at hi
    cases hp : (Virtual.ensure ps key)[i]? with
    | none => rw [hp] at hi; simp at hi
    | some p =>
      rw [hp] at hi
      simp only [Option.map_some, Option.some.injEq] at hi
      rw [← hi] at hb
      split at hb
      · split at hb
        · rename_i h' hh'
          by_cases h44 : i < 44
          · rw [hin i p hp h44] at hh'; simp at hh'
          · exact extra_apply (g1.extra i p (by omega) hp) hh' b hb
        · simp at hb
      · simp at hb

theorem default_created {ps : List Param} (h : Shape ps) (set : Option Nat) (value : PVal) (m : List Nat)
    (hno : ∀ q ∈ ps, q.hit 2 m = none) (r : List Param × List (List Nat)) (hr : parseDefault 2 set value ps m = some r) :
    Created ps r.1 r.2 := by
  simp only [parseDefault] at hr
  split at hr
  · simp only [Option.some.injEq] at hr
    subst hr
    obtain ⟨g1, g2⟩ := h.ensure (.nrpn (slice m 8 10))
    exact ⟨g1, g2, sendOf_sx _ _⟩
  · split at hr
    · simp only [Option.some.injEq] at hr
      rw [← hr]
      exact created h set m hno _
    · split at hr
      · simp only [Option.some.injEq] at hr
        rw [← hr]
        exact created h set m hno _
      · split at hr
        · simp only [Option.some.injEq] at hr
          rw [← hr]
          exact created h set m hno _
        · simp at hr

/-- A message is for one of the parameters of the setup, or for one which has been created. -/
theorem parse_cases {ps : List Param} (h : Shape ps) (set : Option Nat) (m : List Nat) :
    (∃ (j : Nat) (q : Param) (hit : Hit), j < 44 ∧ ps[j]? = some q ∧ (∀ k q', k < j → ps[k]? = some q' → q'.hit 2 m = none) ∧ q.hit 2 m = some hit ∧
      parseParams 2 set ps m = (ps.set j (q.apply set hit).1, (q.apply set hit).2) ∧
      fired 2 ps m = match hit with
        | .set v => if fires q v then some (q, v) else none
        | .request => none) ∨
    ((∀ k q', k < 44 → ps[k]? = some q' → q'.hit 2 m = none) ∧
      Created ps (parseParams 2 set ps m).1 (parseParams 2 set ps m).2 ∧
      (∀ p v, fired 2 ps m = some (p, v) → Extra p ∧ (p.hit 2 m).isSome)) := by
  rcases parseEntries_spec 2 set m ps with ⟨j, q, hit, h1, h2, h3, h4⟩ | ⟨h1, h2⟩
  · have hlt := List.getElem?_eq_some_iff.1 h1
    have hf : ps.find? (fun p => (p.hit 2 m).isSome) = some q := by
      rw [List.find?_eq_some_iff_getElem]
      refine ⟨by simp [h3], j, hlt.1, hlt.2, ?_⟩
      intro k hk
      have hl := hlt.1
      have := h2 k _ hk (List.getElem?_eq_getElem (by omega))
      simp [this]
    have hp : parseParams 2 set ps m = (ps.set j (q.apply set hit).1, (q.apply set hit).2) := by
      simp only [parseParams, h4]
    by_cases hj : j < 44
    · refine .inl ⟨j, q, hit, hj, h1, h2, h3, hp, ?_⟩
      simp only [fired, hf, h3]
      cases hit <;> rfl
    · right
      have hx := h.extra j q (by omega) h1
      refine ⟨fun k q' hk hq' => h2 k q' (by omega) hq', ?_, ?_⟩
      · rw [hp]
        refine ⟨h.set h1 (skel_apply _ _ _), ?_, extra_apply hx h3⟩
        intro i hi
        rw [List.getElem?_set_ne (by omega)]
      · intro p v hpv
        simp only [fired, hf, h3] at hpv
        have : p = q := by
          cases hit with
          | request => simp at hpv
          | set w =>
            simp only at hpv
            split at hpv
            · simp only [Option.some.injEq, Prod.mk.injEq] at hpv
              exact hpv.1.symm
            · simp at hpv
        subst this
        exact ⟨hx, by simp [h3]⟩
  · right
    refine ⟨fun k q' _ hq' => h2 q' (List.mem_of_getElem? hq'), ?_, ?_⟩
    · simp only [parseParams, h1]
      cases hd : parseDefault 2 set (.num 0) ps m with
      | some r => exact default_created h set _ m h2 r hd
      | none =>
        simp only
        cases hd' : parseDefault 2 set (.str []) ps m with
        | some r => exact default_created h set _ m h2 r hd'
        | none => exact ⟨h, fun _ _ => rfl, Sx.nil⟩
    · intro p v hpv
      have : ps.find? (fun p => (p.hit 2 m).isSome) = none := by
        rw [List.find?_eq_none]
        intro q hq
        simp [h2 q hq]
      simp [fired, this] at hpv

/-! ### Which rig is active -/

/-- Where the controls of the rigs are. -/
def place (c j : Nat) : Bool :=
  if c = 32 then j == 18
  else if c = 48 then j == 25
  else if c = 49 then j == 26
  else if 50 ≤ c ∧ c ≤ 54 then j + 30 == c
  else j < 18 || 26 < j

theorem placed : ∀ j : Fin 44, ∀ t ∈ T[j.val]?, ((ccs t).all fun c => place c j) = true := by decide +kernel

theorem nrpn_placed : ∀ j : Fin 44, ∀ t ∈ T[j.val]?,
    (t.receive.all fun k => match k with
      | .nrpn _ => decide (j.val < 18 ∨ 26 < j.val)
      | .pc => decide (j.val = 19)
      | _ => true) = true := by decide +kernel

theorem heads : ∀ j : Fin 44, ∀ t ∈ T[j.val]?, (match t.receive.head? with
      | some (.cc c _) => decide ((c < 48 ∨ 54 < c) ∨ (20 ≤ j.val ∧ j.val ≤ 26))
      | _ => true) = true := by decide +kernel

theorem sends : ∀ j : Fin 44, ∀ t ∈ T[j.val]?, (j.val < 18 ∨ 26 < j.val) → (match t.send with
      | some (.nrpn _) => true
      | none => true
      | _ => false) = true := by decide +kernel

/-- The state of the device as far as the rigs are concerned. -/
structure View (d : Device) (p : Player) : Prop where
  product : d.proto.productType = 2
  shape : Shape d.params
  rig : RigIs d p.rig
  buttons : ∀ s, s < 5 → val d.params (20 + s) = some (.num (p.button s))
  presel : d.presel = p.preselected

theorem View.of {d d' : Device} {p : Player} (h : View d p) (hs : Shape d'.params) (hp : d'.proto.productType = 2)
    (hv : ∀ i, 18 ≤ i → i ≤ 24 → val d'.params i = val d.params i) (hr : d'.presel = d.presel) : View d' p :=
  ⟨hp, hs, ⟨by rw [hv 18 (by omega) (by omega)]; exact h.rig.hi, by rw [hv 19 (by omega) (by omega)]; exact h.rig.lo⟩,
    fun s hs => by rw [hv _ (by omega) (by omega)]; exact h.buttons s hs, by rw [hr]; exact h.presel⟩

/-- A callback which has nothing to do with the selection of rigs. -/
theorem callback_same {d : Device} (h : Shape d.params) {p : Param} {v : PVal} {date : List Nat}
    (hp : ∀ c s, p.receive.head? = some (.cc c s) → c < 48 ∨ 54 < c) :
    Same d (d.callback p v date).1 ∧ Sx (d.callback p v date).2 := by
  have hsame : Same d d := ⟨h, fun _ _ _ => rfl, rfl, rfl⟩
  unfold Device.callback
  split
  · rename_i c s hc
    have := hp c s hc
    rw [if_neg (by omega), if_neg (by omega), if_neg (by omega)]
    split
    · exact ⟨⟨h, fun _ _ _ => rfl, rfl, rfl⟩, Sx.nil⟩
    · exact ⟨hsame, Sx.nil⟩
  · split
    · have := updateRig_same h date
      exact ⟨this.1, this.2.1⟩
    · exact ⟨hsame, Sx.nil⟩
  · exact ⟨hsame, Sx.nil⟩

/-- How the rig is reported. -/
def Report (n n' : Nat) (act : Bool) (out : List (List Nat)) : Prop :=
  (Sx out ∧ (n' = n ∨ act = false)) ∨ ∃ pre post, Sx pre ∧ Sx post ∧ out = pre ++ pair n' ++ post

theorem Report.append {n n' : Nat} {act : Bool} {out sx : List (List Nat)} (h : Report n n' act out) (hs : Sx sx) :
    Report n n' act (out ++ sx) := by
  rcases h with ⟨h1, h2⟩ | ⟨pre, post, h1, h2, h3⟩
  · exact .inl ⟨h1.append hs, h2⟩
  · exact .inr ⟨pre, post ++ sx, h1, h2.append hs, by rw [h3]; simp⟩

theorem RigSet.report {d d' : Device} {n : Nat} {out : List (List Nat)} (h : RigSet d n d' out) (m : Nat) :
    Report m n (active d) out := by
  obtain ⟨sx, h1, h2⟩ := h.out
  cases ha : active d with
  | true => rw [ha] at h2; exact .inr ⟨[], sx, Sx.nil, h1, by simpa using h2⟩
  | false => rw [ha] at h2; exact .inl ⟨by rw [h2]; simpa using h1, .inr rfl⟩

/-- With another rig, the name is that of the rig. -/
def Named (n n' : Nat) (d' : Device) : Prop := n' ≠ n → val d'.params 17 = some (text (rigName n'))

theorem Named.same {n : Nat} {d' : Device} : Named n n d' := fun h => absurd rfl h

theorem onRig_eq {d : Device} {p : Player} (h : View d p) (s v : Nat) (date : List Nat) :
    View (d.onRig s (.num v) date).1
      { p with rig := if v = 1 then 5 * p.preselected.getD (p.rig / 5) + s else p.rig, preselected := none } ∧
    Report p.rig (if v = 1 then 5 * p.preselected.getD (p.rig / 5) + s else p.rig) (active d) (d.onRig s (.num v) date).2 ∧
    Named p.rig (if v = 1 then 5 * p.preselected.getD (p.rig / 5) + s else p.rig) (d.onRig s (.num v) date).1 := by
  have hid := h.rig.id h.shape
  unfold Device.onRig
  simp only [hid, h.presel, PVal.num.injEq]
  by_cases hv : v = 1
  · rw [if_pos hv, if_pos hv, Nat.mul_comm]
    generalize hn : 5 * p.preselected.getD (p.rig / 5) + s = n
    have hd : Shape ({ d with presel := none } : Device).params := h.shape
    have hr := setRigId_eq (d := { d with presel := none }) hd n date
    generalize hR : Device.setRigId { d with presel := none } n date = R at hr
    have hm := Shape.setKey (d := R.1) hr.shape (key := .nrpn [0, 11]) (v := .num 0) (i := 34) (by decide)
      (t := skel (nrpn 0 11 (.num 0) [.cc 11 (some 128)])) rfl rfl
    obtain ⟨m1, m2, m3, m4⟩ := hm
    have key : ∀ q : Device × List (List Nat), (q = R.1.setKey (.nrpn [0, 11]) (.num 0) ∨ q = (R.1, [])) →
        View { q.1 with lastRig := some n } { p with rig := n, preselected := none } ∧ Report p.rig n (active d) (R.2 ++ q.2) ∧
        Named p.rig n { q.1 with lastRig := some n } := by
      intro q hq
      have hvals : Shape q.1.params ∧ q.1.proto = R.1.proto ∧ q.1.presel = R.1.presel ∧
          (∀ i, 34 ≠ i → val q.1.params i = val R.1.params i) ∧ Sx q.2 := by
        rcases hq with rfl | rfl
        · exact ⟨m1, by rw [m4], by rw [m4], m3, setKey_sx⟩
        · exact ⟨hr.shape, rfl, rfl, fun _ _ => rfl, Sx.nil⟩
      obtain ⟨v1, v2, v3, v4, v5⟩ := hvals
      refine ⟨⟨?_, v1, ⟨?_, ?_⟩, ?_, ?_⟩, (hr.report p.rig).append v5, fun _ => (v4 17 (by decide)).trans hr.name⟩
      · show q.1.proto.productType = 2
        rw [v2, hr.proto]; exact h.product
      · show val q.1.params 18 = _
        rw [v4 18 (by decide)]; exact hr.rig.hi
      · show val q.1.params 19 = _
        rw [v4 19 (by decide)]; exact hr.rig.lo
      · intro i hi
        show val q.1.params (20 + i) = _
        rw [v4 _ (by omega), hr.vals _ (by omega) (by omega) (by omega) (by omega)]
        exact h.buttons i hi
      · show q.1.presel = none
        rw [v3, hr.presel]
    split
    · exact key _ (.inl rfl)
    · exact key _ (.inr rfl)
  · rw [if_neg hv, if_neg hv]
    exact ⟨⟨h.product, h.shape, ⟨h.rig.hi, h.rig.lo⟩, h.buttons, rfl⟩, .inl ⟨Sx.nil, .inl rfl⟩, Named.same⟩

theorem setRigId_view {d : Device} {p : Player} (h : View d p) (n : Nat) (date : List Nat) :
    View (d.setRigId n date).1 { p with rig := n } ∧ Report p.rig n (active d) (d.setRigId n date).2 ∧
    Named p.rig n (d.setRigId n date).1 := by
  have hr := setRigId_eq h.shape n date
  refine ⟨⟨by rw [hr.proto]; exact h.product, hr.shape, hr.rig, ?_, by rw [hr.presel]; exact h.presel⟩, hr.report _, fun _ => hr.name⟩
  intro s hs
  rw [hr.vals _ (by omega) (by omega) (by omega) (by omega)]
  exact h.buttons s hs

theorem onBank_eq {d : Device} {p : Player} (h : View d p) (up : Bool) (v : Nat) (date : List Nat) :
    let n := if v = 0 then (if up then (p.rig + 5) % 625 else (p.rig + 620) % 625) else p.rig
    View (d.onBank up (.num v) date).1 { p with rig := n } ∧ Report p.rig n (active d) (d.onBank up (.num v) date).2 ∧
    Named p.rig n (d.onBank up (.num v) date).1 := by
  intro n
  have hid := h.rig.id h.shape
  unfold Device.onBank
  simp only [PVal.num.injEq]
  by_cases hv : v = 0
  · rw [if_pos hv, hid, wrap_eq]
    have : n = if up then (p.rig + 5) % 625 else (p.rig + 620) % 625 := if_pos hv
    rw [this]
    exact setRigId_view h _ date
  · have : n = p.rig := if_neg hv
    rw [if_neg hv, this]
    exact ⟨h, .inl ⟨Sx.nil, .inl rfl⟩, Named.same⟩

theorem Shape.cc_place {ps : List Param} (h : Shape ps) {j : Nat} (hj : j < 44) {q : Param} (hq : ps[j]? = some q) {c v : Nat}
    {hit : Hit} (hh : q.hit 2 [176, c, v] = some hit) : place c j = true := by
  obtain ⟨q', hq', hs⟩ := h.at hj
  rw [hq] at hq'
  simp only [Option.some.injEq] at hq'
  subst hq'
  have hp := placed ⟨j, hj⟩ (skel q) hs.symm
  rw [List.all_eq_true] at hp
  apply hp
  have : (q.hit 2 [176, c, v]).isSome = true := by simp [hh]
  rw [hit_cc_isSome] at this
  simpa [ccs, skel] using this

/-- The parameters of the selection of rigs, with their values. -/
theorem Shape.rigParam {ps : List Param} (h : Shape ps) {j : Nat} (hj : j < 44) {c : Nat} {nb : Bool} {sd : Option Key}
    {sets : List Nat} (ht : T[j]? = some { send := sd, receive := [.cc c none], value := .num 0, sets, noBuffer := nb }) :
    ∃ n, ps[j]? = some { send := sd, receive := [.cc c none], value := .num n, sets, noBuffer := nb } := by
  obtain ⟨q, hq, hs⟩ := h.at hj
  rw [ht] at hs
  simp only [Option.some.injEq] at hs
  obtain ⟨a, b, w, e, f⟩ := q
  simp only [skel, Param.mk.injEq] at hs
  obtain ⟨h1, h2, h3, h4, h5⟩ := hs
  cases w with
  | str cs => simp [zero] at h3
  | num n => exact ⟨n, by rw [hq, h1, h2, h4, h5]⟩

theorem Same.view {d d' : Device} {p : Player} (hs : Same d d') (h : View d p) : View d' p :=
  h.of hs.shape (by rw [hs.proto]; exact h.product) (fun i h1 h2 => hs.vals i (by omega) (by omega)) hs.presel

/-- A message which has nothing to do with the selection of rigs. -/
theorem receive_other {d : Device} {p : Player} (h : View d p) (now : Int) (date : List Nat) (m : List Nat)
    (h47 : m.take 2 ≠ [176, 47])
    (hbase : ∀ (j : Nat) (q : Param) (hit : Hit), j < 44 → d.params[j]? = some q → q.hit 2 m = some hit → j < 18 ∨ 26 < j)
    (hextra : ∀ e, Extra e → (e.hit 2 m).isSome → (∀ k q', k < 44 → d.params[k]? = some q' → q'.hit 2 m = none) →
      ∀ c s, e.receive.head? = some (.cc c s) → c < 48 ∨ 54 < c)
    (hproto : m.take 9 ≠ [240, 0, 32, 51, 2, 127, 126, 0, 64]) :
    View (d.receive now date m).1 p ∧ Sx (d.receive now date m).2 ∧ (d.receive now date m).1.proto = d.proto := by
  have hparse : Virtual.receive d.proto d.params now m =
      (d.proto, (parseParams 2 d.proto.parameterSet d.params m).1, (parseParams 2 d.proto.parameterSet d.params m).2) := by
    simp only [Virtual.receive, Virtual.parse, h.product, if_pos hproto]
    rfl
  simp only [Device.receive, if_neg h47, hparse, h.product]
  rcases parse_cases h.shape d.proto.parameterSet m with ⟨j, q, hit, hj, hq, -, hh, hpp, hf⟩ | ⟨hno, hc, hf⟩
  · have hj' := hbase j q hit hj hq hh
    have hsh : Shape (d.params.set j (q.apply d.proto.parameterSet hit).1) := h.shape.set hq (skel_apply _ _ _)
    have hv : View { d with params := d.params.set j (q.apply d.proto.parameterSet hit).1 } p :=
      h.of hsh h.product (fun i h1 h2 => val_set_ne (by omega)) rfl
    have hsx : Sx (q.apply d.proto.parameterSet hit).2 := by
      obtain ⟨-, a2, -, -⟩ := apply_spec q d.proto.parameterSet hit
      rcases a2 with a2 | a2
      · rw [a2]
        have hsend : (q.apply d.proto.parameterSet hit).1.send = q.send := by
          have := congrArg Param.send (skel_apply q d.proto.parameterSet hit)
          simpa only [skel] using this
        obtain ⟨q', hq', hs⟩ := h.shape.at hj
        rw [hq] at hq'
        simp only [Option.some.injEq] at hq'
        subst hq'
        have := sends ⟨j, hj⟩ (skel q) hs.symm (by simpa using hj')
        simp only [skel] at this
        split at this
        · rename_i hd; exact bytes_sx (by rw [hsend]; exact hd)
        · rename_i hd; simp [Param.bytes, hsend, hd, Sx]
        · simp at this
      · rw [a2]; exact Sx.nil
    rw [hpp]
    cases hfd : fired 2 d.params m with
    | none => exact ⟨hv, hsx, rfl⟩
    | some x =>
      have hx : x.1 = q := by
        rw [hf] at hfd
        cases hit with
        | request => simp at hfd
        | set w =>
          simp only at hfd
          split at hfd
          · simp only [Option.some.injEq] at hfd; rw [← hfd]
          · simp at hfd
      obtain ⟨x1, x2⟩ := x
      simp only at hx
      subst hx
      have hhead : ∀ c s, x1.receive.head? = some (.cc c s) → c < 48 ∨ 54 < c := by
        intro c s hc
        obtain ⟨q', hq', hs⟩ := h.shape.at hj
        rw [hq] at hq'
        simp only [Option.some.injEq] at hq'
        subst hq'
        have := heads ⟨j, hj⟩ (skel x1) hs.symm
        simp only [skel, hc, decide_eq_true_eq] at this
        omega
      obtain ⟨c1, c2⟩ := callback_same (d := { d with params := d.params.set j (x1.apply d.proto.parameterSet hit).1 }) hsh
        (v := x2) (date := date) hhead
      exact ⟨c1.view hv, c2.append hsx, c1.proto⟩
  · have hv : View { d with params := (parseParams 2 d.proto.parameterSet d.params m).1 } p :=
      h.of hc.shape h.product (fun i h1 h2 => by simp only [val, hc.base i (by omega)]) rfl
    cases hfd : fired 2 d.params m with
    | none => exact ⟨hv, hc.out, rfl⟩
    | some x =>
      obtain ⟨x1, x2⟩ := x
      obtain ⟨f1, f2⟩ := hf x1 x2 hfd
      obtain ⟨c1, c2⟩ := callback_same (d := { d with params := (parseParams 2 d.proto.parameterSet d.params m).1 }) hc.shape
        (v := x2) (date := date) (hextra x1 f1 f2 hno)
      exact ⟨c1.view hv, c2.append hc.out, c1.proto⟩

/-- A control of the selection of rigs: the value is kept, nothing is sent by the parameter itself. -/
theorem receive_own {d : Device} {p : Player} (h : View d p) (now : Int) (date : List Nat) {c v j : Nat} {nb : Bool} {sd : Option Key}
    {sets : List Nat} (hj : j < 44) (h47 : c ≠ 47)
    (ht : T[j]? = some { send := sd, receive := [.cc c none], value := .num 0, sets, noBuffer := nb })
    (hpl : ∀ k, place c k = true → k = j) {q : Param} (hq' : d.params[j]? = some q) :
    let r := q.apply d.proto.parameterSet (.set (.num v))
    let d' : Device := { d with params := d.params.set j r.1 }
    d.receive now date [176, c, v] =
      if fires q (.num v) then ((d'.callback q (.num v) date).1, (d'.callback q (.num v) date).2 ++ r.2) else (d', r.2) := by
  intro r d'
  have hparse : Virtual.receive d.proto d.params now [176, c, v] =
      (d.proto, (parseParams 2 d.proto.parameterSet d.params [176, c, v]).1, (parseParams 2 d.proto.parameterSet d.params [176, c, v]).2) := by
    simp only [Virtual.receive, Virtual.parse, h.product]
    rfl
  obtain ⟨n, hq⟩ := h.shape.rigParam hj ht
  rw [hq'] at hq
  simp only [Option.some.injEq] at hq
  have hhit : q.hit 2 [176, c, v] = some (.set (.num v)) := by
    rw [hit_cc, hq]
    simp
  have h47' : ¬List.take 2 [176, c, v] = [176, 47] := by simpa using h47
  simp only [Device.receive, if_neg h47', hparse, h.product]
  rcases parse_cases h.shape d.proto.parameterSet [176, c, v] with ⟨k, q2, hit, hk, hq2, -, hh, hpp, hf⟩ | ⟨hno, -, -⟩
  · have hkj := hpl k (h.shape.cc_place hk hq2 hh)
    subst hkj
    rw [hq'] at hq2
    simp only [Option.some.injEq] at hq2
    subst hq2
    rw [hhit] at hh
    simp only [Option.some.injEq] at hh
    subst hh
    rw [hf, hpp]
    simp only
    split
    · rename_i hx
      split at hx
      · simp at hx
      · rename_i hfi; rw [if_neg hfi]
    · rename_i a b hx
      split at hx
      · rename_i hfi
        rw [if_pos hfi]
        simp only [Option.some.injEq, Prod.mk.injEq] at hx
        rw [← hx.1, ← hx.2]
      · simp at hx
  · have := hno j q hj hq'
    rw [hhit] at this
    simp at this

/-- A rig button. -/
theorem receive_button {d : Device} {p : Player} (h : View d p) (now : Int) (date : List Nat) {s v : Nat} (hs : s < 5) :
    View (d.receive now date [176, 50 + s, v]).1 (p.press s v) ∧
    Report p.rig (p.press s v).rig (active d) (d.receive now date [176, 50 + s, v]).2 ∧
    Named p.rig (p.press s v).rig (d.receive now date [176, 50 + s, v]).1 := by
  have ht : T[20 + s]? = some { send := none, receive := [.cc (50 + s) none], value := .num 0, sets := [], noBuffer := false } := by
    rcases (by omega : s = 0 ∨ s = 1 ∨ s = 2 ∨ s = 3 ∨ s = 4) with rfl | rfl | rfl | rfl | rfl <;> rfl
  obtain ⟨n, hq⟩ := h.shape.rigParam (by omega) ht
  have hn : n = p.button s := by
    have := h.buttons s hs
    simp only [val, hq, Option.map_some, Option.some.injEq, PVal.num.injEq] at this
    exact this
  rw [receive_own h now date (by omega) (by omega) ht (by intro k hk; simp only [place] at hk; grind) hq]
  simp only [Player.press]
  by_cases hv : p.button s = v
  · rw [if_pos hv]
    subst hn
    subst hv
    rw [if_neg (by simp [fires])]
    refine ⟨?_, .inl ⟨?_, .inl rfl⟩, Named.same⟩
    · simp only [Param.apply, Param.setValue]
      have : d.params.set (20 + s) { send := none, receive := [.cc (50 + s) none], value := .num (p.button s), sets := [], noBuffer := false } = d.params := by
        apply List.ext_getElem?
        intro i
        by_cases hi : 20 + s = i
        · subst hi
          rw [List.getElem?_set_self (List.getElem?_eq_some_iff.1 hq).1, hq]
        · rw [List.getElem?_set_ne hi]
      simp [this]
      exact h
    · simp [Param.apply, Param.setValue, Sx]
  · rw [if_neg hv]
    subst hn
    have hfire : fires { send := none, receive := [.cc (50 + s) none], value := .num (p.button s), sets := [], noBuffer := false } (.num v) = true := by
      simpa [fires] using hv
    rw [if_pos hfire]
    have happ : Param.apply d.proto.parameterSet { send := none, receive := [.cc (50 + s) none], value := .num (p.button s), sets := [], noBuffer := false } (.set (.num v)) =
        ({ send := none, receive := [.cc (50 + s) none], value := .num v, sets := [], noBuffer := false }, []) := by
      simp [Param.apply, Param.setValue, hv]
    rw [happ]
    simp only
    have hview : View { d with params := d.params.set (20 + s) { send := none, receive := [.cc (50 + s) none], value := .num v, sets := [], noBuffer := false } }
        { p with button := fun i => if i = s then v else p.button i } := by
      refine ⟨h.product, h.shape.set hq rfl, ⟨?_, ?_⟩, ?_, h.presel⟩
      · show val (d.params.set _ _) 18 = _
        rw [val_set_ne (by omega)]; exact h.rig.hi
      · show val (d.params.set _ _) 19 = _
        rw [val_set_ne (by omega)]; exact h.rig.lo
      · intro i hi
        show val (d.params.set _ _) _ = _
        by_cases his : i = s
        · subst his
          rw [val_set_self hq]
          simp
        · rw [val_set_ne (by omega)]
          simp only [if_neg his]
          exact h.buttons i hi
    have hcb : ∀ (D : Device), D.callback { send := none, receive := [.cc (50 + s) none], value := .num (p.button s), sets := [], noBuffer := false } (.num v) date =
        D.onRig s (.num v) date := by
      intro D
      simp only [Device.callback, List.head?_cons]
      rw [if_pos (by omega)]
      congr 1
      omega
    rw [hcb, List.append_nil]
    exact onRig_eq hview s v date

/-- The bank buttons. -/
theorem receive_bank {d : Device} {p : Player} (h : View d p) (now : Int) (date : List Nat) (up : Bool) (v : Nat) :
    let n := if v = 0 then (if up then (p.rig + 5) % 625 else (p.rig + 620) % 625) else p.rig
    View (d.receive now date [176, if up then 48 else 49, v]).1 { p with rig := n } ∧
    Report p.rig n (active d) (d.receive now date [176, if up then 48 else 49, v]).2 ∧
    Named p.rig n (d.receive now date [176, if up then 48 else 49, v]).1 := by
  intro n
  generalize hcdef : (if up then 48 else 49) = c
  generalize hjdef : (if up then 25 else 26) = j
  have hcj : (c = 48 ∧ j = 25) ∨ (c = 49 ∧ j = 26) := by cases up <;> simp_all
  have ht : T[j]? = some { send := none, receive := [.cc c none], value := .num 0, sets := [], noBuffer := true } := by
    rcases hcj with ⟨rfl, rfl⟩ | ⟨rfl, rfl⟩ <;> rfl
  obtain ⟨w, hq⟩ := h.shape.rigParam (by omega) ht
  rw [receive_own h now date (by omega) (by omega) ht (by intro k hk; simp only [place] at hk; grind) hq]
  have hfire : fires { send := none, receive := [.cc c none], value := .num w, sets := [], noBuffer := true } (.num v) = true := by
    simp [fires]
  rw [if_pos hfire]
  have happ : Param.apply d.proto.parameterSet { send := none, receive := [.cc c none], value := .num w, sets := [], noBuffer := true } (.set (.num v)) =
      ({ send := none, receive := [.cc c none], value := .num v, sets := [], noBuffer := true }, []) := by
    simp [Param.apply, Param.setValue]
  rw [happ]
  simp only
  have hview : View { d with params := d.params.set j { send := none, receive := [.cc c none], value := .num v, sets := [], noBuffer := true } } p :=
    h.of (h.shape.set hq rfl) h.product (fun i h1 h2 => val_set_ne (by omega)) rfl
  have hcb : ∀ (D : Device), D.callback { send := none, receive := [.cc c none], value := .num w, sets := [], noBuffer := true } (.num v) date =
      D.onBank up (.num v) date := by
    intro D
    simp only [Device.callback, List.head?_cons]
    cases up
    · simp at hcdef; subst hcdef; simp
    · simp at hcdef; subst hcdef; simp
  rw [hcb, List.append_nil]
  exact onBank_eq hview up v date

/-- CC 32: the upper part of the number of the rig. -/
theorem receive_upper {d : Device} {p : Player} (h : View d p) (now : Int) (date : List Nat) (v : Nat) :
    View (d.receive now date [176, 32, v]).1 { p with rig := 128 * v + p.rig % 128 } := by
  have ht : T[18]? = some { send := some (.cc 32 none), receive := [.cc 32 none], value := .num 0, sets := allSets, noBuffer := true } := rfl
  obtain ⟨w, hq⟩ := h.shape.rigParam (by omega) ht
  rw [receive_own h now date (by omega) (by omega) ht (by intro k hk; simp only [place] at hk; grind) hq]
  rw [if_pos (by simp [fires])]
  have happ : (Param.apply d.proto.parameterSet { send := some (.cc 32 none), receive := [.cc 32 none], value := .num w, sets := allSets, noBuffer := true } (.set (.num v))).1 =
      { send := some (.cc 32 none), receive := [.cc 32 none], value := .num v, sets := allSets, noBuffer := true } := by
    simp [Param.apply, Param.setValue]
  rw [happ]
  have hcb : ∀ (D : Device), D.callback { send := some (.cc 32 none), receive := [.cc 32 none], value := .num w, sets := allSets, noBuffer := true } (.num v) date =
      (D, []) := by
    intro D
    simp [Device.callback]
  rw [hcb]
  refine ⟨h.product, h.shape.set hq rfl, ⟨?_, ?_⟩, ?_, h.presel⟩
  · show val (d.params.set _ _) 18 = some (.num ((128 * v + p.rig % 128) / 128))
    rw [val_set_self hq]
    have : (128 * v + p.rig % 128) / 128 = v := by omega
    rw [this]
  · show val (d.params.set _ _) 19 = some (.num ((128 * v + p.rig % 128) % 128))
    rw [val_set_ne (by omega), h.rig.lo]
    have : (128 * v + p.rig % 128) % 128 = p.rig % 128 := by omega
    rw [this]
  · intro i hi
    show val (d.params.set _ _) _ = _
    rw [val_set_ne (by omega)]
    exact h.buttons i hi

/-- Program change: the lower part. -/
theorem receive_lower {d : Device} {p : Player} (h : View d p) (now : Int) (date : List Nat) {v : Nat} (hv : v < 128) :
    View (d.receive now date [192, v]).1 { p with rig := p.rig / 128 * 128 + v } := by
  have hparse : Virtual.receive d.proto d.params now [192, v] =
      (d.proto, (parseParams 2 d.proto.parameterSet d.params [192, v]).1, (parseParams 2 d.proto.parameterSet d.params [192, v]).2) := by
    simp only [Virtual.receive, Virtual.parse, h.product]
    rfl
  obtain ⟨q, hq, hs⟩ := h.shape.at (i := 19) (by omega)
  have hs' : skel q = { send := some .pc, receive := [.pc], value := .num 0, sets := allSets, noBuffer := true } := by
    have : T[19]? = some { send := some .pc, receive := [.pc], value := .num 0, sets := allSets, noBuffer := true } := rfl
    rw [this] at hs
    simpa using hs
  have hrec : q.receive = [.pc] := congrArg Param.receive hs'
  have hhit : q.hit 2 [192, v] = some (.set (.num v)) := by rw [hit_pc, hrec]; rfl
  simp only [Device.receive, hparse, h.product]
  rw [if_neg (by simp)]
  rcases parse_cases h.shape d.proto.parameterSet [192, v] with ⟨k, q2, hit, hk, hq2, -, hh, hpp, hf⟩ | ⟨hno, -, -⟩
  · have hk19 : k = 19 := by
      obtain ⟨q', hq', hs2⟩ := h.shape.at hk
      rw [hq2] at hq'
      simp only [Option.some.injEq] at hq'
      subst hq'
      have := nrpn_placed ⟨k, hk⟩ (skel q2) hs2.symm
      rw [List.all_eq_true] at this
      rw [hit_pc] at hh
      obtain ⟨key, hkey, hk'⟩ := List.exists_of_findSome?_eq_some hh
      have := this key hkey
      cases key with
      | pc => simpa using this
      | cc c s => simp at hk'
      | nrpn data => simp at hk'
    subst hk19
    rw [hq] at hq2
    simp only [Option.some.injEq] at hq2
    subst hq2
    rw [hhit] at hh
    simp only [Option.some.injEq] at hh
    subst hh
    have hval : (q.apply d.proto.parameterSet (.set (.num v))).1.value = .num v := by
      obtain ⟨-, -, -, a4⟩ := apply_spec q d.proto.parameterSet (.set (.num v))
      apply a4 v _ rfl
      have : zero q.value = .num 0 := congrArg Param.value hs'
      cases hz : q.value with
      | num n => rfl
      | str cs => rw [hz] at this; simp [zero] at this
    have hview : View { d with params := d.params.set 19 (q.apply d.proto.parameterSet (.set (.num v))).1 } { p with rig := p.rig / 128 * 128 + v } := by
      refine ⟨h.product, h.shape.set hq (skel_apply _ _ _), ⟨?_, ?_⟩, ?_, h.presel⟩
      · show val (d.params.set _ _) 18 = some (.num ((p.rig / 128 * 128 + v) / 128))
        rw [val_set_ne (by omega), h.rig.hi]
        have : (p.rig / 128 * 128 + v) / 128 = p.rig / 128 := by omega
        rw [this]
      · show val (d.params.set _ _) 19 = some (.num ((p.rig / 128 * 128 + v) % 128))
        rw [val_set_self hq, hval]
        have : (p.rig / 128 * 128 + v) % 128 = v := by omega
        rw [this]
      · intro i hi
        show val (d.params.set _ _) _ = _
        rw [val_set_ne (by omega)]
        exact h.buttons i hi
    rw [hpp]
    cases hfd : fired 2 d.params [192, v] with
    | none => exact hview
    | some x =>
      obtain ⟨x1, x2⟩ := x
      have hx : x1 = q := by
        rw [hf] at hfd
        simp only at hfd
        split at hfd
        · simp only [Option.some.injEq, Prod.mk.injEq] at hfd; exact hfd.1.symm
        · simp at hfd
      subst hx
      have hcb : ∀ (D : Device), D.callback x1 x2 date = (D, []) := by
        intro D
        simp [Device.callback, hrec]
      simp only [hcb]
      exact hview
  · have := hno 19 q (by omega) hq
    rw [hhit] at this
    simp at this

/-- All values of a parameter set. -/
theorem setMessages_report {d : Device} {p : Player} (h : View d p) (set : Nat) :
    (set ∈ allSets → ∃ pre post, Sx pre ∧ Sx post ∧ setMessages d.params set = pre ++ pair p.rig ++ post) ∧
    (set ∉ allSets → setMessages d.params set = []) := by
  have hlen : 44 ≤ d.params.length := by
    have := congrArg List.length h.shape.base
    rw [T_length] at this
    simp at this
    omega
  have hsets : ∀ j : Fin 44, ∀ t ∈ T[j.val]?, (t.sets.all fun s => allSets.contains s) = true := by decide +kernel
  have hmem : ∀ (i : Nat) q, d.params[i]? = some q → set ∈ q.sets → set ∈ allSets ∧ i < 44 := by
    intro i q hq hs
    by_cases hi : i < 44
    · obtain ⟨q', hq', hs'⟩ := h.shape.at hi
      rw [hq] at hq'
      simp only [Option.some.injEq] at hq'
      subst hq'
      have := hsets ⟨i, hi⟩ (skel q) hs'.symm
      rw [List.all_eq_true] at this
      have := this set hs
      exact ⟨by simpa using this, hi⟩
    · obtain ⟨key, -, -, e3⟩ := h.shape.extra i q (by omega) hq
      rw [e3] at hs
      simp at hs
  have hsx : ∀ ps : List Param, (∀ q ∈ ps, ∃ i, i ≠ 18 ∧ i ≠ 19 ∧ d.params[i]? = some q) → Sx (setMessages ps set) := by
    intro ps hps b hb
    simp only [setMessages, List.mem_flatMap, List.mem_filter] at hb
    obtain ⟨q, ⟨hq, hc⟩, hb⟩ := hb
    obtain ⟨i, h18, h19, hi⟩ := hps q hq
    obtain ⟨-, hlt⟩ := hmem i q hi (by simpa using hc)
    obtain ⟨q', hq', hs'⟩ := h.shape.at hlt
    rw [hi] at hq'
    simp only [Option.some.injEq] at hq'
    subst hq'
    have hsend : ∀ j : Fin 44, ∀ t ∈ T[j.val]?, j.val ≠ 18 → j.val ≠ 19 → (match t.send with
      | some (.nrpn _) => true
      | none => true
      | _ => false) = true := by decide +kernel
    have := hsend ⟨i, hlt⟩ (skel q) hs'.symm h18 h19
    simp only [skel] at this
    split at this
    · rename_i hd; exact bytes_sx hd b hb
    · rename_i hd; simp [Param.bytes, hd] at hb
    · simp at this
  constructor
  · intro hs
    obtain ⟨q1, hq1, hs1⟩ := h.shape.at (i := 18) (by omega)
    obtain ⟨q2, hq2, hs2⟩ := h.shape.at (i := 19) (by omega)
    have e1 : skel q1 = { send := some (.cc 32 none), receive := [.cc 32 none], value := .num 0, sets := allSets, noBuffer := true } := by
      have : T[18]? = some { send := some (.cc 32 none), receive := [.cc 32 none], value := .num 0, sets := allSets, noBuffer := true } := rfl
      rw [this] at hs1
      simpa using hs1
    have e2 : skel q2 = { send := some .pc, receive := [.pc], value := .num 0, sets := allSets, noBuffer := true } := by
      have : T[19]? = some { send := some .pc, receive := [.pc], value := .num 0, sets := allSets, noBuffer := true } := rfl
      rw [this] at hs2
      simpa using hs2
    have hsplit : d.params = d.params.take 18 ++ [q1, q2] ++ d.params.drop 20 := by
      have a1 := List.getElem?_eq_some_iff.1 hq1
      have a2 := List.getElem?_eq_some_iff.1 hq2
      rw [List.append_assoc]
      show d.params = d.params.take 18 ++ (q1 :: q2 :: d.params.drop 20)
      rw [← a1.2, ← a2.2, ← List.drop_eq_getElem_cons, ← List.drop_eq_getElem_cons, List.take_append_drop]
    have b1 : q1.bytes = [[176, 32, p.rig / 128]] := by
      have hv := h.rig.hi
      simp only [val, hq1, Option.map_some, Option.some.injEq] at hv
      have hse : q1.send = some (.cc 32 none) := congrArg Param.send e1
      simp only [Param.bytes, hse, hv]
    have b2 : q2.bytes = [[192, p.rig % 128]] := by
      have hv := h.rig.lo
      simp only [val, hq2, Option.map_some, Option.some.injEq] at hv
      have hse : q2.send = some .pc := congrArg Param.send e2
      simp only [Param.bytes, hse, hv]
    have s1 : q1.sets = allSets := congrArg Param.sets e1
    have s2 : q2.sets = allSets := congrArg Param.sets e2
    refine ⟨setMessages (d.params.take 18) set, setMessages (d.params.drop 20) set, hsx _ ?_, hsx _ ?_, ?_⟩
    · intro q hq
      obtain ⟨i, hi⟩ := List.mem_iff_getElem?.1 hq
      rw [List.getElem?_take] at hi
      split at hi
      · exact ⟨i, by omega, by omega, hi⟩
      · simp at hi
    · intro q hq
      obtain ⟨i, hi⟩ := List.mem_iff_getElem?.1 hq
      rw [List.getElem?_drop] at hi
      exact ⟨_, by omega, by omega, hi⟩
    · have hmid : setMessages [q1, q2] set = pair p.rig := by
        have hc : allSets.contains set = true := by simpa using hs
        simp only [setMessages, List.filter_cons, s1, s2, hc, if_true, List.filter_nil, List.flatMap_cons, List.flatMap_nil, b1, b2]
        rfl
      conv => lhs; rw [hsplit]
      rw [← hmid]
      simp only [setMessages, List.filter_append, List.flatMap_append]
  · intro hs
    have : d.params.filter (fun p => p.sets.contains set) = [] := by
      rw [List.filter_eq_nil_iff]
      intro q hq hc
      obtain ⟨i, hi⟩ := List.mem_iff_getElem?.1 hq
      exact hs (hmem i q hi (by simpa using hc)).1
    simp only [setMessages, this, List.flatMap_nil]

theorem sysex_base {d : Device} {p : Player} (h : View d p) {m : List Nat} (hm : m.head? = some 240) :
    ∀ (j : Nat) (q : Param) (hit : Hit), j < 44 → d.params[j]? = some q → q.hit 2 m = some hit → j < 18 ∨ 26 < j := by
  intro j q hit hj hq hh
  obtain ⟨data, hd⟩ := hit_sysex hm hh
  obtain ⟨q', hq', hs⟩ := h.shape.at hj
  rw [hq] at hq'
  simp only [Option.some.injEq] at hq'
  subst hq'
  have := nrpn_placed ⟨j, hj⟩ (skel q) hs.symm
  rw [List.all_eq_true] at this
  have := this _ hd
  simpa using this

/-- A message of the protocol. -/
theorem receive_proto {d : Device} {p : Player} (h : View d p) (now : Int) (date : List Nat) {m : List Nat}
    (hproto : m.take 9 = [240, 0, 32, 51, 2, 127, 126, 0, 64]) :
    d.receive now date m =
      ({ d with proto := { d.proto with parameterSet := some (m.getD 9 0), timeLease := some ⟨m.getD 11 0 * 2000, now⟩, connected := true } },
        if m.getD 10 0 % 2 = 1 then setMessages d.params (m.getD 9 0) else []) := by
  have hm : m.head? = some 240 := by
    match m, hproto with
    | [], hproto => simp at hproto
    | x :: m, hproto =>
      simp only [List.take_succ_cons, List.cons.injEq] at hproto
      simp [hproto.1]
  have h47 : m.take 2 ≠ [176, 47] := by
    match m, hm with
    | x :: m, hm =>
      simp only [List.head?_cons, Option.some.injEq] at hm
      subst hm
      simp
  have hpar : Virtual.parse (setMessages d.params) d.proto now m =
      ({ d.proto with parameterSet := some (m.getD 9 0), timeLease := some ⟨m.getD 11 0 * 2000, now⟩, connected := true },
        if m.getD 10 0 % 2 = 1 then setMessages d.params (m.getD 9 0) else [], true) := by
    simp only [Virtual.parse, h.product]
    rw [if_neg (fun hx => hx hproto)]
  have hparse : Virtual.receive d.proto d.params now m =
      ((Virtual.parse (setMessages d.params) d.proto now m).1, d.params, (Virtual.parse (setMessages d.params) d.proto now m).2.1) := by
    rw [hpar]
    simp only [Virtual.receive]
    rw [hpar]
    rfl
  have hfired : fired 2 d.params m = none := by
    have : ∀ q ∈ d.params, ¬((q.hit 2 m).isSome = true) := by
      intro q _ hh
      cases hx : q.hit 2 m with
      | none => rw [hx] at hh; simp at hh
      | some hit =>
        have h6 : m[6]? = some 126 := by
          have := congrArg (·[6]?) hproto
          simpa [List.getElem?_take] using this
        unfold Param.hit at hx
        obtain ⟨k, hk, hk'⟩ := List.exists_of_findSome?_eq_some hx
        have hm0 : m.head? = some 240 := hm
        cases k with
        | nrpn data =>
          have key : ∀ x, m.take (8 + data.length) = [240, 0, 32, 51, 2, 127, x, 0] ++ data → x = 126 := by
            intro x hx
            have := congrArg (·[6]?) hx
            simp only [List.getElem?_take] at this
            rw [if_pos (by omega), h6] at this
            simpa using this.symm
          simp only [hitKey] at hk'
          split at hk'
          · rename_i hx; have := key _ hx; cases hv : q.value <;> simp [hv, requestCode] at this
          · split at hk'
            · rename_i hx; have := key _ hx; cases hv : q.value <;> simp [hv, setCode] at this
            · simp at hk'
        | cc c s =>
          have : m.take 2 ≠ [176, c] := by
            match m, hm0 with
            | x :: m, hm0 =>
              simp only [List.head?_cons, Option.some.injEq] at hm0
              subst hm0
              simp
          simp [hitKey, this] at hk'
        | pc => simp [hitKey, hm0] at hk'
    simp only [fired, List.find?_eq_none.2 this]
  simp only [Device.receive, if_neg h47, hparse, h.product, hfired]
  rw [hpar]
  simp only [h.product]

/-- A message which is not for the protocol does not change its state. Each message does to the rig what it should, and this is reported. -/
theorem receive_step {d : Device} {p : Player} (h : View d p) (now : Int) (date : List Nat) {m : List Nat} (hm : Midi m) :
    View (d.receive now date m).1 (p.message m) ∧
    ((∀ v, m ≠ [192, v]) → (∀ v, m ≠ [176, 32, v]) →
      Report p.rig (p.message m).rig (active d) (d.receive now date m).2 ∧ Named p.rig (p.message m).rig (d.receive now date m).1) := by
  rcases hm with ⟨c, v, rfl, hc, hv⟩ | ⟨v, rfl, hv⟩ | hm
  · by_cases h47 : c = 47
    · subst h47
      simp only [Player.message]
      rw [if_neg (by omega), if_pos trivial]
      have : d.receive now date [176, 47, v] = ({ d with presel := some v }, []) := by
        simp [Device.receive]
      rw [this]
      exact ⟨⟨h.product, h.shape, ⟨h.rig.hi, h.rig.lo⟩, h.buttons, rfl⟩, fun _ _ => ⟨.inl ⟨Sx.nil, .inl rfl⟩, Named.same⟩⟩
    · by_cases h32 : c = 32
      · subst h32
        simp only [Player.message]
        rw [if_pos trivial]
        exact ⟨receive_upper h now date v, fun _ hn => absurd rfl (hn v)⟩
      · by_cases h48 : c = 48
        · subst h48
          have := receive_bank h now date true v
          simp only [if_true] at this
          simp only [Player.message]
          rw [if_neg (by omega), if_neg (by omega), if_pos trivial]
          by_cases hv0 : v = 0
          · simp only [hv0, if_true] at this ⊢
            exact ⟨this.1, fun _ _ => this.2⟩
          · simp only [hv0, if_false] at this ⊢
            exact ⟨this.1, fun _ _ => this.2⟩
        · by_cases h49 : c = 49
          · subst h49
            have := receive_bank h now date false v
            simp only [Bool.false_eq_true, if_false] at this
            simp only [Player.message]
            rw [if_neg (by omega), if_neg (by omega), if_neg (by omega), if_pos trivial]
            by_cases hv0 : v = 0
            · simp only [hv0, if_true] at this ⊢
              exact ⟨this.1, fun _ _ => this.2⟩
            · simp only [hv0, if_false] at this ⊢
              exact ⟨this.1, fun _ _ => this.2⟩
          · by_cases h50 : 50 ≤ c ∧ c ≤ 54
            · obtain ⟨s, rfl⟩ : ∃ s, c = 50 + s := ⟨c - 50, by omega⟩
              have := receive_button h now date (s := s) (v := v) (by omega)
              simp only [Player.message]
              rw [if_neg h32, if_neg h47, if_neg h48, if_neg h49, if_pos h50, Nat.add_sub_cancel_left]
              exact ⟨this.1, fun _ _ => this.2⟩
            · have := receive_other h now date [176, c, v] (by simpa using h47) (by
                intro j q hit hj hq hh
                have hp := h.shape.cc_place hj hq hh
                simp only [place, if_neg h32, if_neg h48, if_neg h49, if_neg h50] at hp
                simpa using hp) (by
                intro e he hh _ c' s' hc'
                obtain ⟨key, e1, -, -⟩ := he
                rw [e1] at hc'
                simp only [List.head?_cons, Option.some.injEq] at hc'
                rw [hit_cc_isSome] at hh
                simp [ccs, e1, hc'] at hh
                omega) (by simp)
              simp only [Player.message]
              rw [if_neg h32, if_neg h47, if_neg h48, if_neg h49, if_neg h50]
              exact ⟨this.1, fun _ _ => ⟨.inl ⟨this.2.1, .inl rfl⟩, Named.same⟩⟩
  · exact ⟨receive_lower h now date hv, fun hn => absurd rfl (hn v)⟩
  · have hpm : p.message m = p := by
      match m, hm with
      | x :: m, hm =>
        simp only [List.head?_cons, Option.some.injEq] at hm
        subst hm
        unfold Player.message
        split
        · simp_all
        · simp_all
        · rfl
    rw [hpm]
    have h47 : m.take 2 ≠ [176, 47] := by
      match m, hm with
      | x :: m, hm =>
        simp only [List.head?_cons, Option.some.injEq] at hm
        subst hm
        simp
    by_cases hproto : m.take 9 = [240, 0, 32, 51, 2, 127, 126, 0, 64]
    · rw [receive_proto h now date hproto]
      refine ⟨h.of h.shape ?_ (fun _ _ _ => rfl) rfl, fun _ _ => ?_⟩
      · exact h.product
      · refine ⟨?_, Named.same⟩
        simp only
        obtain ⟨r1, r2⟩ := setMessages_report h (m.getD 9 0)
        split
        · by_cases hs : m.getD 9 0 ∈ allSets
          · exact .inr (r1 hs)
          · rw [r2 hs]; exact .inl ⟨Sx.nil, .inl rfl⟩
        · exact .inl ⟨Sx.nil, .inl rfl⟩
    · have := receive_other h now date m h47 (sysex_base h hm) (by
        intro e he hh _ c' s' hc'
        obtain ⟨key, e1, -, -⟩ := he
        cases hx : e.hit 2 m with
        | none => rw [hx] at hh; simp at hh
        | some hit =>
          obtain ⟨data, hd⟩ := hit_sysex hm hx
          rw [e1] at hd hc'
          simp only [List.mem_singleton] at hd
          simp only [List.head?_cons, Option.some.injEq] at hc'
          rw [← hd] at hc'
          simp at hc') hproto
      exact ⟨this.1, fun _ _ => ⟨.inl ⟨this.2.1, .inl rfl⟩, Named.same⟩⟩

/-- An event of the device. -/
theorem any_step {d : Device} {p : Player} (h : View d p) {e : Ev} (he : Proper e) :
    View (d.step e).1 (p.step e) ∧
    (ByButton e → Report p.rig (p.step e).rig (active d) (d.step e).2 ∧ Named p.rig (p.step e).rig (d.step e).1) := by
  cases e with
  | receive now date m =>
    obtain ⟨h1, h2⟩ := receive_step h now date he
    refine ⟨h1, fun hb => h2 ?_ ?_⟩
    · rintro v rfl; exact hb
    · rintro v rfl; exact hb
  | update now =>
    refine ⟨?_, fun _ => ⟨.inl ⟨?_, .inl rfl⟩, Named.same⟩⟩
    · refine h.of h.shape ?_ (fun _ _ _ => rfl) rfl
      have : (Virtual.update d.proto now).1.productType = d.proto.productType := by
        simp only [Virtual.update]
        repeat' split
        all_goals rfl
      show (Virtual.update d.proto now).1.productType = 2
      rw [this]; exact h.product
    · show Sx (Virtual.update d.proto now).2
      simp only [Virtual.update]
      repeat' split
      all_goals simp [Sx, keepAliveBytes]
  | tuner =>
    refine ⟨h, fun _ => ⟨.inl ⟨?_, .inl rfl⟩, Named.same⟩⟩
    show Sx (if d.tunerRunning then _ else [])
    split
    · exact (sendOf_sx _ _).append (sendOf_sx _ _)
    · exact Sx.nil
  | ui date u =>
    cases u with
    | rig n => exact ⟨(setRigId_view h n date).1, fun _ => (setRigId_view h n date).2⟩
    | value page number v =>
      show View (d.ui date (.value page number v)).1 p ∧ (_ → Report p.rig p.rig (active d) (d.ui date (.value page number v)).2 ∧ Named p.rig p.rig (d.ui date (.value page number v)).1)
      simp only [Device.ui]
      cases hf : d.params.find? (fun p => p.send == some (.nrpn [page, number])) with
      | none => exact ⟨h, fun _ => ⟨.inl ⟨Sx.nil, .inl rfl⟩, Named.same⟩⟩
      | some q =>
        simp only
        obtain ⟨g1, j, hj, hjq, g3⟩ := List.find?_eq_some_iff_getElem.1 hf
        have hq : d.params[j]? = some q := by rw [List.getElem?_eq_getElem hj, hjq]
        have hsend : q.send = some (.nrpn [page, number]) := by simpa using g1
        have hj' : j < 18 ∨ 26 < j := by
          by_cases h44 : j < 44
          · obtain ⟨q', hq', hs⟩ := h.shape.at h44
            rw [hq] at hq'
            simp only [Option.some.injEq] at hq'
            subst hq'
            have := (by decide +kernel : ∀ j : Fin 44, ∀ t ∈ T[j.val]?, (match t.send with
              | some (.nrpn _) => decide (j.val < 18 ∨ 26 < j.val)
              | _ => true) = true) ⟨j, h44⟩ (skel q) hs.symm
            simpa [skel, hsend] using this
          · omega
        have hidx : d.params.findIdx? (fun p => p.send == some (.nrpn [page, number])) = some j := by
          rw [List.findIdx?_eq_some_iff_getElem]
          refine ⟨hj, by rw [hjq]; exact g1, ?_⟩
          intro k hk
          have := g3 k hk
          simpa using this
        have hset : View (d.setKey (.nrpn [page, number]) v).1 p := by
          simp only [Device.setKey, hidx, hq, Option.bind_some]
          rcases setValue_spec q d.proto.parameterSet v with ⟨h1, -⟩ | ⟨h1, h2⟩ | ⟨h1, h2⟩
          · rw [h1]; exact h
          · rw [h1]
            exact h.of (h.shape.set hq rfl) h.product (fun i a b => val_set_ne (by omega)) rfl
          · rw [h1]
            exact h.of (h.shape.set hq (by simp only [skel]; rw [zero_kind.2 h2])) h.product (fun i a b => val_set_ne (by omega)) rfl
        split
        · have hhead : ∀ c s, q.receive.head? = some (.cc c s) → c < 48 ∨ 54 < c := by
            intro c s hc
            by_cases h44 : j < 44
            · obtain ⟨q', hq', hs⟩ := h.shape.at h44
              rw [hq] at hq'
              simp only [Option.some.injEq] at hq'
              subst hq'
              have := heads ⟨j, h44⟩ (skel q) hs.symm
              simp only [skel, hc, decide_eq_true_eq] at this
              omega
            · obtain ⟨key, e1, e2, -⟩ := h.shape.extra j q (by omega) hq
              rw [e2] at hsend
              rw [e1] at hc
              simp only [Option.some.injEq] at hsend
              rw [hsend] at hc
              simp at hc
          obtain ⟨c1, c2⟩ := callback_same (d := (d.setKey (.nrpn [page, number]) v).1) hset.shape (p := q) (v := v) (date := date) hhead
          exact ⟨c1.view hset, fun _ => ⟨.inl ⟨c2.append setKey_sx, .inl rfl⟩, Named.same⟩⟩
        · exact ⟨hset, fun _ => ⟨.inl ⟨setKey_sx, .inl rfl⟩, Named.same⟩⟩

theorem view_initial (now : Int) (date : List Nat) : View (initial now date) {} := by
  have hshape : Shape (table date) := by
    constructor
    · rfl
    · intro i e hi he
      have := (List.getElem?_eq_some_iff.1 he).1
      have hl : (table date).length = 44 := rfl
      omega
  have h : View { proto := Virtual.initial 2 now, params := table date } {} := by
    refine ⟨rfl, hshape, ⟨rfl, rfl⟩, ?_, rfl⟩
    intro s hs
    rcases (by omega : s = 0 ∨ s = 1 ∨ s = 2 ∨ s = 3 ∨ s = 4) with rfl | rfl | rfl | rfl | rfl <;> rfl
  exact (updateRig_same (d := { proto := Virtual.initial 2 now, params := table date }) hshape date).1.view h

theorem view_run {d : Device} {p : Player} (h : View d p) (es : List Ev) (he : ∀ e ∈ es, Proper e) :
    View (d.run es).1 (es.foldl Player.step p) := by
  induction es generalizing d p with
  | nil => exact h
  | cons e es ih => exact ih (any_step h (he e (by simp))).1 fun e' h' => he e' (by simp [h'])

/-! ### What PySwitch knows -/

theorem heard_append (m : Mapping.Mapping) (a b : List (List Nat)) :
    heard m (a ++ b) = match heard m a with
      | .error e => .error e
      | .ok m' => heard m' b := by
  induction a generalizing m with
  | nil => rfl
  | cons x a ih =>
    simp only [List.cons_append, heard]
    split
    · exact ih m
    · split
      · rfl
      · exact ih _

/-- The mapping of the rig, with some value. -/
def RigMapping (m : Mapping.Mapping) : Prop := m.twoPart = true ∧ m.response = Table.rigResponse ∧ m.type = .numeric

theorem heard_sx {m : Mapping.Mapping} (h : RigMapping m) (bs : List (List Nat)) (hb : Sx bs) : heard m bs = .ok m := by
  induction bs with
  | nil => rfl
  | cons b bs ih =>
    obtain ⟨r, rfl⟩ := hb b (by simp)
    have ih := ih fun x hx => hb x (by simp [hx])
    simp only [heard]
    cases hm : (fromMessageBytes [0] (240 :: 0 :: r)).1 with
    | none => exact ih
    | some msg =>
      have : Mapping.parse m msg = .ok (false, m) := by
        rcases parse_sysex_head _ rfl rfl msg hm with ⟨man, k, rfl⟩ | ⟨x, rfl⟩
        · simp [Mapping.parse, h.1, parseTwoPart, h.2.1, Table.rigResponse, parseAgainst, Table.cc, Table.pc]
        · simp [Mapping.parse, h.1, parseTwoPart, h.2.1, Table.rigResponse, parseAgainst]
      simp only [this]
      exact ih

theorem heard_pair {m : Mapping.Mapping} (h : RigMapping m) {n : Nat} (hn : n < 16384) :
    ∃ m', heard m (pair n) = .ok m' ∧ RigMapping m' ∧ m'.value = some (.num n) := by
  have h1 : (fromMessageBytes [0] [176, 32, n / 128]).1 = some (.cc 32 (n / 128) (some 0)) := by
    have := Props.C04_round_trip [0] 0 (.cc 32 (n / 128) (some 0)) [] ⟨by omega, by omega, by omega⟩ (.inr rfl) (by simp)
    rw [List.append_nil] at this
    rw [show [176, 32, n / 128] = toBytes 0 (.cc 32 (n / 128) (some 0)) from rfl, this]
  have h2 : (fromMessageBytes [0] [192, n % 128]).1 = some (.pc (n % 128) (some 0)) := by
    have := Props.C04_round_trip [0] 0 (.pc (n % 128) (some 0)) [] ⟨by omega, by omega⟩ (.inr rfl) (by simp)
    rw [List.append_nil] at this
    rw [show [192, n % 128] = toBytes 0 (.pc (n % 128) (some 0)) from rfl, this]
  have p1 : Mapping.parse m (.cc 32 (n / 128) (some 0)) = .ok (true, { m with part1 := some (n / 128) }) := by
    simp [Mapping.parse, h.1, parseTwoPart, h.2.1, Table.rigResponse, parseAgainst, Table.cc, Table.pc]
  have p2 : Mapping.parse { m with part1 := some (n / 128) } (.pc (n % 128) (some 0)) =
      .ok (true, { m with value := some (.num (128 * (n / 128) + n % 128)), part1 := none }) := by
    simp [Mapping.parse, h.1, parseTwoPart, h.2.1, Table.rigResponse, parseAgainst, Table.cc, Table.pc]
  refine ⟨{ m with value := some (.num (128 * (n / 128) + n % 128)), part1 := none }, ?_, ⟨h.1, h.2.1, h.2.2⟩, ?_⟩
  · simp only [pair, heard, h1, p1, h2, p2]
  · have : 128 * (n / 128) + n % 128 = n := by omega
    simp only [this]

theorem heard_report {m : Mapping.Mapping} (h : RigMapping m) {n n' : Nat} (hn : n' < 16384) {out : List (List Nat)}
    (hv : m.value = some (.num n)) (hr : Report n n' true out) :
    ∃ m', heard m out = .ok m' ∧ RigMapping m' ∧ m'.value = some (.num n') := by
  rcases hr with ⟨h1, h2⟩ | ⟨pre, post, h1, h2, rfl⟩
  · refine ⟨m, heard_sx h out h1, h, ?_⟩
    rcases h2 with rfl | h2
    · exact hv
    · simp at h2
  · obtain ⟨m', g1, g2, g3⟩ := heard_pair h hn
    refine ⟨m', ?_, g2, g3⟩
    rw [heard_append, heard_append, heard_sx h pre h1]
    simp only [g1]
    exact heard_sx g2 post h2

/-- The numbers stay small. -/
structure Small (p : Player) : Prop where
  rig : p.rig < 640
  presel : ∀ b, p.preselected = some b → b < 128

theorem small_step {p : Player} (h : Small p) {e : Ev} (he : Proper e) (hb : ByButton e) : Small (p.step e) := by
  cases e with
  | update now => exact h
  | tuner => exact h
  | ui date u =>
    cases u with
    | rig n => exact ⟨Nat.lt_trans hb (by decide), h.presel⟩
    | value page number v => exact h
  | receive now date m =>
    show Small (p.message m)
    rcases he with ⟨c, v, rfl, hc, hv⟩ | ⟨v, rfl, hv⟩ | hm
    · have h32 : c ≠ 32 := by rintro rfl; exact hb
      have hr := h.rig
      simp only [Player.message, if_neg h32]
      split
      · exact ⟨hr, by intro b hb'; simp only [Option.some.injEq] at hb'; omega⟩
      · split
        · split
          · exact ⟨by show (p.rig + 5) % 625 < 640; omega, h.presel⟩
          · exact h
        · split
          · split
            · exact ⟨by show (p.rig + 620) % 625 < 640; omega, h.presel⟩
            · exact h
          · split
            · rename_i hc'
              simp only [Player.press]
              split
              · exact h
              · refine ⟨?_, by simp⟩
                show (if v = 1 then 5 * p.preselected.getD (p.rig / 5) + (c - 50) else p.rig) < 640
                split
                · cases hp : p.preselected with
                  | none => simp only [Option.getD_none]; omega
                  | some b => have := h.presel b hp; simp only [Option.getD_some]; omega
                · exact hr
            · exact h
    · exact (hb : False).elim
    · match m, hm with
      | x :: m, hm =>
        simp only [List.head?_cons, Option.some.injEq] at hm
        subst hm
        unfold Player.message
        split
        · simp_all
        · simp_all
        · exact h

theorem small_run {p : Player} (h : Small p) (es : List Ev) (he : ∀ e ∈ es, Proper e ∧ ByButton e) :
    Small (es.foldl Player.step p) := by
  induction es generalizing p with
  | nil => exact h
  | cons e es ih => exact ih (small_step h (he e (by simp)).1 (he e (by simp)).2) fun e' h' => he e' (by simp [h'])

theorem connected_active {d : Device} (h : Connected d) : active d = true := by
  obtain ⟨s, h1, h2, h3⟩ := h
  simp only [Setup.active, h1, Option.any_some]
  have : s = 1 ∨ s = 2 ∨ s = 3 ∨ s = 4 := by omega
  rcases this with rfl | rfl | rfl | rfl <;> rfl

theorem heard_asked {d : Device} {p : Player} (h : View d p) (hs : p.rig < 16384) {m : Mapping.Mapping} (hm : RigMapping m) {msg : List Nat}
    (ha : Asks msg) (now : Int) (date : List Nat) :
    Connected (d.receive now date msg).1 ∧
    ∃ m', heard m (d.receive now date msg).2 = .ok m' ∧ RigMapping m' ∧ m'.value = some (.num p.rig) := by
  obtain ⟨set, flags, lease, rfl, h1, h2, h3⟩ := ha
  rw [receive_proto h now date rfl]
  refine ⟨⟨set, rfl, h1, h2⟩, ?_⟩
  have : set ∈ allSets := by simp [allSets]; omega
  obtain ⟨pre, post, g1, g2, g3⟩ := (setMessages_report h set).1 this
  have e : (if [240, 0, 32, 51, 2, 127, 126, 0, 64, set, flags, lease, 247].getD 10 0 % 2 = 1 then
      setMessages d.params ([240, 0, 32, 51, 2, 127, 126, 0, 64, set, flags, lease, 247].getD 9 0) else []) = setMessages d.params set :=
    if_pos h3
  simp only [e, g3]
  obtain ⟨m', k1, k2, k3⟩ := heard_pair hm hs
  refine ⟨m', ?_, k2, k3⟩
  rw [heard_append, heard_append, heard_sx hm pre g1]
  simp only [k1]
  exact heard_sx k2 post g2

theorem heard_run {d : Device} {p : Player} (h : View d p) (hc : Connected d) (hs : Small p) {m : Mapping.Mapping} (hm : RigMapping m)
    (hv : m.value = some (.num p.rig)) (es : List Ev) (he : ∀ e ∈ es, Proper e ∧ ByButton e) (hst : Stays d es) :
    ∃ m', heard m (d.run es).2 = .ok m' ∧ m'.value = some (.num (es.foldl Player.step p).rig) := by
  induction es generalizing d p m with
  | nil => exact ⟨m, rfl, hv⟩
  | cons e es ih =>
    obtain ⟨h1, h2⟩ := any_step h (he e (by simp)).1
    have hs' := small_step hs (he e (by simp)).1 (he e (by simp)).2
    have hr := (h2 (he e (by simp)).2).1
    rw [connected_active hc] at hr
    obtain ⟨m1, g1, g2, g3⟩ := heard_report hm (by have := hs'.rig; omega) hv hr
    obtain ⟨m2, k1, k2⟩ := ih h1 hst.1 hs' g2 g3 (fun e' h' => he e' (by simp [h'])) hst.2
    refine ⟨m2, ?_, k2⟩
    show heard m ((d.step e).2 ++ ((d.step e).1.run es).2) = _
    rw [heard_append, g1]
    exact k1

end PySwitch.Kemper.Setup
