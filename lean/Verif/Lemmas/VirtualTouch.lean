import Verif.Lemmas.VirtualSetup

/-! What the events of the virtual Kemper do to a single parameter. -/

namespace PySwitch.Kemper.Setup
open PySwitch.Wire PySwitch.Mapping PySwitch.Kemper.Virtual PySwitch.Kemper.Synced
open PySwitch.Kemper.Setup.Spec

theorem hitKey_zero (value : PVal) (m : List Nat) (k : Key) : hitKey 2 (zero value) m k = hitKey 2 value m k := by
  cases value <;> cases k <;> rfl

theorem hit_skel (q : Param) (m : List Nat) : (skel q).hit 2 m = q.hit 2 m := by
  simp only [Param.hit, skel]
  congr 1
  funext k
  exact hitKey_zero _ _ _

/-- The keys are for the same messages. -/
def sameKey : Key → Key → Bool
  | .nrpn a, .nrpn b => a == b
  | .cc a _, .cc b _ => a == b
  | .pc, .pc => true
  | _, _ => false

theorem two_keys {v w : PVal} {m : List Nat} {a b : Key} (ha : (hitKey 2 v m a).isSome) (hb : (hitKey 2 w m b).isSome)
    (la : ∀ d, a = .nrpn d → d.length = 2) (lb : ∀ d, b = .nrpn d → d.length = 2) : sameKey a b = true := by
  have hn : ∀ {v : PVal} {d : List Nat}, (hitKey 2 v m (.nrpn d)).isSome → ∃ x, m.take (8 + d.length) = [240, 0, 32, 51, 2, 127, x, 0] ++ d := by
    intro v d h
    simp only [hitKey] at h
    split at h
    · rename_i hx; exact ⟨_, hx⟩
    · split at h
      · rename_i hx; exact ⟨_, hx⟩
      · simp at h
  have hh : ∀ {d : List Nat} {x : Nat}, m.take (8 + d.length) = [240, 0, 32, 51, 2, 127, x, 0] ++ d → m.head? = some 240 := by
    intro d x h
    cases m with
    | nil => simp at h
    | cons y m =>
      have : 8 + d.length = (d.length + 7) + 1 := by omega
      rw [this, List.take_succ_cons] at h
      simp at h
      simp [h.1]
  have hc : ∀ {v : PVal} {c : Nat} {s : Option Nat}, (hitKey 2 v m (.cc c s)).isSome → m.take 2 = [176, c] := by
    intro v c s h
    simp only [hitKey] at h
    split at h
    · assumption
    · simp at h
  have hch : ∀ {c : Nat}, m.take 2 = [176, c] → m.head? = some 176 := by
    intro c h
    cases m with
    | nil => simp at h
    | cons y m => simp at h; simp [h.1]
  have hp : ∀ {v : PVal}, (hitKey 2 v m .pc).isSome → m.head? = some 192 := by
    intro v h
    simp only [hitKey] at h
    split at h
    · assumption
    · simp at h
  cases a with
  | nrpn d =>
    obtain ⟨x, hx⟩ := hn ha
    have h240 := hh hx
    cases b with
    | nrpn e =>
      obtain ⟨y, hy⟩ := hn hb
      rw [la d rfl] at hx
      rw [lb e rfl, hx] at hy
      simp at hy
      simp [sameKey, hy.2]
    | cc c s => rw [hch (hc hb)] at h240; simp at h240
    | pc => rw [hp hb] at h240; simp at h240
  | cc c s =>
    have h176 := hch (hc ha)
    cases b with
    | nrpn e => obtain ⟨y, hy⟩ := hn hb; rw [hh hy] at h176; simp at h176
    | cc c' s' =>
      have h1 := hc ha
      rw [hc hb] at h1
      simp at h1
      simp [sameKey, h1]
    | pc => rw [hp hb] at h176; simp at h176
  | pc =>
    have h192 := hp ha
    cases b with
    | nrpn e => obtain ⟨y, hy⟩ := hn hb; rw [hh hy] at h192; simp at h192
    | cc c' s' => rw [hch (hc hb)] at h192; simp at h192
    | pc => rfl

theorem keys_apart : ∀ i j : Fin 44, i ≠ j → ∀ t ∈ T[i.val]?, ∀ u ∈ T[j.val]?,
    (t.receive.all fun a => u.receive.all fun b => !sameKey a b) = true := by decide +kernel

theorem keys_two : ∀ i : Fin 44, ∀ t ∈ T[i.val]?, (t.receive.all fun a => match a with
    | .nrpn d => d.length == 2
    | _ => true) = true := by decide +kernel

/-- No message is for two parameters of the setup. -/
theorem hit_apart {i j : Nat} (hi : i < 44) (hj : j < 44) (hij : i ≠ j) {t u : Param} (ht : T[i]? = some t) (hu : T[j]? = some u) {m : List Nat}
    (h : (t.hit 2 m).isSome) : u.hit 2 m = none := by
  cases hx : u.hit 2 m with
  | none => rfl
  | some y =>
    exfalso
    unfold Param.hit at h hx
    cases hz : List.findSome? (hitKey 2 t.value m) t.receive with
    | none => rw [hz] at h; simp at h
    | some z =>
      obtain ⟨a, ha, ha'⟩ := List.exists_of_findSome?_eq_some hz
      obtain ⟨b, hb, hb'⟩ := List.exists_of_findSome?_eq_some hx
      have h1 := keys_apart ⟨i, hi⟩ ⟨j, hj⟩ (by simpa using hij) t ht u hu
      rw [List.all_eq_true] at h1
      have h2 := h1 a ha
      rw [List.all_eq_true] at h2
      have h3 := h2 b hb
      have l1 := keys_two ⟨i, hi⟩ t ht
      have l2 := keys_two ⟨j, hj⟩ u hu
      rw [List.all_eq_true] at l1 l2
      have := two_keys (a := a) (b := b) (v := t.value) (w := u.value) (m := m) (by rw [ha']; rfl) (by rw [hb']; rfl)
        (fun d hd => by have := l1 a ha; rw [hd] at this; simpa using this)
        (fun d hd => by have := l2 b hb; rw [hd] at this; simpa using this)
      rw [this] at h3
      simp at h3

/-! ### Callbacks -/

/-- Parameters which are not changed by other parameters. -/
def Own (i : Nat) : Prop := i < 44 ∧ i ≠ 17 ∧ i ≠ 18 ∧ i ≠ 19 ∧ i ≠ 27 ∧ i ≠ 34

instance (i : Nat) : Decidable (Own i) := by unfold Own; exact inferInstance

/-- The report of a numeric parameter. -/
def About (data : List Nat) (b : List Nat) : Prop := b.take 10 = [240, 0, 32, 51, 0, 0, 1, 0] ++ data

instance (data b : List Nat) : Decidable (About data b) := by unfold About; exact inferInstance

/-- Nothing is reported about the parameter. -/
def Mute (data : List Nat) (out : List (List Nat)) : Prop := ∀ b ∈ out, ¬About data b

theorem Mute.nil {data : List Nat} : Mute data [] := by simp [Mute]

theorem Mute.append {data : List Nat} {a b : List (List Nat)} (ha : Mute data a) (hb : Mute data b) : Mute data (a ++ b) := by
  intro x hx
  rcases List.mem_append.1 hx with h | h
  · exact ha x h
  · exact hb x h

theorem bytes_mute {p : Param} {key : Key} {data : List Nat} (h : p.send = some key) (hl : data.length = 2)
    (hk : ∀ d, key = .nrpn d → d.length = 2 ∧ d ≠ data) : Mute data p.bytes := by
  intro b hb hab
  simp only [About] at hab
  cases key with
  | nrpn d =>
    obtain ⟨l, hd⟩ := hk d rfl
    simp only [Param.bytes, h, List.mem_singleton] at hb
    subst hb
    match d, l with
    | [x, y], _ =>
      match data, hl with
      | [x', y'], _ =>
        simp at hab
        exact hd (by simp [hab])
  | cc c s =>
    simp only [Param.bytes, h] at hb
    cases hv : p.value <;> simp [hv] at hb
    subst hb
    simp at hab
  | pc =>
    simp only [Param.bytes, h] at hb
    cases hv : p.value <;> simp [hv] at hb
    subst hb
    simp at hab

theorem setKey_mute {d : Device} {key : Key} {v : PVal} {data : List Nat} (hl : data.length = 2)
    (hk : ∀ e, key = .nrpn e → e.length = 2 ∧ e ≠ data) : Mute data (d.setKey key v).2 := by
  unfold Device.setKey
  split
  · exact Mute.nil
  · rename_i i hi
    split
    · exact Mute.nil
    · rename_i r hr
      simp only
      cases hp : d.params[i]? with
      | none => rw [hp] at hr; simp at hr
      | some p =>
        rw [hp] at hr
        simp only [Option.bind_some] at hr
        have hsend : p.send = some key := by
          obtain ⟨g1, g2, -⟩ := List.findIdx?_eq_some_iff_getElem.1 hi
          rw [List.getElem?_eq_getElem g1] at hp
          simp only [Option.some.injEq] at hp
          rw [hp] at g2
          simpa using g2
        rcases setValue_spec p d.proto.parameterSet v with ⟨h1, -⟩ | ⟨h1, -⟩ | ⟨h1, -⟩
        · rw [h1] at hr; simp at hr
        · rw [h1] at hr; simp only [Option.some.injEq] at hr; rw [← hr]; exact Mute.nil
        · rw [h1] at hr
          simp only [Option.some.injEq] at hr
          rw [← hr]
          simp only
          split
          · exact bytes_mute (key := key) hsend hl hk
          · exact Mute.nil

/-- What a callback leaves alone. -/
structure Keep (d d' : Device) (out : List (List Nat)) : Prop where
  shape : Shape d'.params
  vals : ∀ i, Own i → val d'.params i = val d.params i
  proto : d'.proto = d.proto
  out : ∀ data, data.length = 2 → data ≠ [0, 1] → data ≠ [0, 3] → data ≠ [0, 11] → Mute data out

theorem Keep.refl {d : Device} (h : Shape d.params) : Keep d d [] := ⟨h, fun _ _ => rfl, rfl, fun _ _ _ _ _ => Mute.nil⟩

theorem updateRig_keep {d : Device} (h : Shape d.params) (date : List Nat) : Keep d (d.updateRig date).1 (d.updateRig date).2 := by
  have := (updateRig_same h date).1
  refine ⟨this.shape, fun i hi => this.vals i hi.2.1 hi.2.2.2.2.1, this.proto, ?_⟩
  intro data hl h1 h2 _
  refine (setKey_mute hl ?_).append (setKey_mute hl ?_)
  · intro e he; simp only [Key.nrpn.injEq] at he; subst he; exact ⟨rfl, Ne.symm h1⟩
  · intro e he; simp only [Key.nrpn.injEq] at he; subst he; exact ⟨rfl, Ne.symm h2⟩

theorem setRigId_keep {d : Device} (h : Shape d.params) (n : Nat) (date : List Nat) : Keep d (d.setRigId n date).1 (d.setRigId n date).2 := by
  have := setRigId_eq h n date
  refine ⟨this.shape, fun i hi => this.vals i hi.2.1 hi.2.2.1 hi.2.2.2.1 hi.2.2.2.2.1, this.proto, ?_⟩
  intro data hl h1 h2 _
  refine ((setKey_mute hl (by simp)).append (setKey_mute hl (by simp))).append ?_
  refine (setKey_mute hl ?_).append (setKey_mute hl ?_)
  · intro e he; simp only [Key.nrpn.injEq] at he; subst he; exact ⟨rfl, Ne.symm h1⟩
  · intro e he; simp only [Key.nrpn.injEq] at he; subst he; exact ⟨rfl, Ne.symm h2⟩

theorem onRig_keep {d : Device} (h : Shape d.params) (s : Nat) (v : PVal) (date : List Nat) : Keep d (d.onRig s v date).1 (d.onRig s v date).2 := by
  unfold Device.onRig
  dsimp only
  split
  · have k := setRigId_keep (d := { d with presel := none }) h (d.presel.getD (d.rigId / 5) * 5 + s) date
    generalize hr : Device.setRigId { d with presel := none } (d.presel.getD (d.rigId / 5) * 5 + s) date = r at k
    split
    · obtain ⟨a1, -, a3, a4⟩ := Shape.setKey (d := r.1) k.shape (key := .nrpn [0, 11]) (v := .num 0) (i := 34) (by decide)
        (t := skel (nrpn 0 11 (.num 0) [.cc 11 (some 128)])) rfl rfl
      refine ⟨a1, fun i hi => (a3 i (Ne.symm hi.2.2.2.2.2)).trans (k.vals i hi), ?_, ?_⟩
      · show (r.1.setKey (.nrpn [0, 11]) (.num 0)).1.proto = d.proto
        rw [a4]
        exact k.proto
      · intro data hl h1 h2 h3
        refine (k.out data hl h1 h2 h3).append (setKey_mute hl ?_)
        intro e he; simp only [Key.nrpn.injEq] at he; subst he; exact ⟨rfl, Ne.symm h3⟩
    · refine ⟨k.shape, k.vals, k.proto, ?_⟩
      intro data hl h1 h2 h3
      exact (k.out data hl h1 h2 h3).append Mute.nil
  · exact ⟨h, fun _ _ => rfl, rfl, fun _ _ _ _ _ => Mute.nil⟩

theorem callback_keep {d : Device} (h : Shape d.params) (p : Param) (v : PVal) (date : List Nat) :
    Keep d (d.callback p v date).1 (d.callback p v date).2 := by
  unfold Device.callback
  split
  · split
    · exact onRig_keep h _ _ _
    · split
      · unfold Device.onBank
        split
        · exact setRigId_keep h _ _
        · exact .refl h
      · split
        · unfold Device.onBank
          split
          · exact setRigId_keep h _ _
          · exact .refl h
        · split
          · exact ⟨h, fun _ _ => rfl, rfl, fun _ _ _ _ _ => Mute.nil⟩
          · exact .refl h
  · split
    · exact updateRig_keep h _
    · exact .refl h
  · exact .refl h

/-! ### Messages -/

/-- The new value after a message. -/
def written (hit : Option Hit) (old : Option PVal) : Option PVal :=
  match hit with
  | some (.set v) => some v
  | _ => old

theorem hit_kind : ∀ i : Fin 44, ∀ t ∈ T[i.val]?, (t.receive.all fun a => match a with
    | .nrpn _ => true
    | _ => kind t.value) = true := by decide +kernel

theorem hit_value {i : Nat} (hi : i < 44) {t : Param} (ht : T[i]? = some t) {m : List Nat} {v : PVal} (h : t.hit 2 m = some (.set v)) :
    kind v = kind t.value := by
  unfold Param.hit at h
  obtain ⟨a, ha, ha'⟩ := List.exists_of_findSome?_eq_some h
  have hk := hit_kind ⟨i, hi⟩ t ht
  rw [List.all_eq_true] at hk
  have hk := hk a ha
  cases a with
  | nrpn d =>
    simp only [hitKey] at ha'
    split at ha'
    · simp at ha'
    · split at ha'
      · simp only [Option.some.injEq, Hit.set.injEq] at ha'
        subst ha'
        cases t.value <;> rfl
      · simp at ha'
  | cc c s =>
    simp only [hitKey] at ha'
    split at ha'
    · simp only [Option.some.injEq, Hit.set.injEq] at ha'
      subst ha'
      exact hk.symm
    · simp at ha'
  | pc =>
    simp only [hitKey] at ha'
    split at ha'
    · simp only [Option.some.injEq, Hit.set.injEq] at ha'
      subst ha'
      exact hk.symm
    · simp at ha'

theorem apply_value {q : Param} {set : Option Nat} {v : PVal} (h : kind v = kind q.value) : (q.apply set (.set v)).1.value = v := by
  simp only [Param.apply]
  rcases setValue_spec q set v with ⟨-, h2⟩ | ⟨h1, h2⟩ | ⟨h1, -⟩
  · exact absurd h h2
  · rw [h1]; exact h2
  · rw [h1]; rfl

theorem hit_proto {q : Param} {m : List Nat} (hproto : m.take 9 = [240, 0, 32, 51, 2, 127, 126, 0, 64]) : q.hit 2 m = none := by
  have h6 : m[6]? = some 126 := by
    have := congrArg (·[6]?) hproto
    simpa [List.getElem?_take] using this
  have hm0 : m.head? = some 240 := by
    match m, hproto with
    | [], hproto => simp at hproto
    | x :: m, hproto =>
      simp only [List.take_succ_cons, List.cons.injEq] at hproto
      simp [hproto.1]
  cases hx : q.hit 2 m with
  | none => rfl
  | some hit =>
    exfalso
    unfold Param.hit at hx
    obtain ⟨k, hk, hk'⟩ := List.exists_of_findSome?_eq_some hx
    cases k with
    | nrpn data =>
      have key : ∀ x, m.take (8 + data.length) = [240, 0, 32, 51, 2, 127, x, 0] ++ data → x = 126 := by
        intro x hx
        have := congrArg (·[6]?) hx
        simp only [List.getElem?_take] at this
        rw [if_pos (by omega), h6] at this
        simpa using this.symm
      simp only [hitKey] at hk'
      split at hk'
      · rename_i hx; have := key _ hx; cases hv : q.value <;> simp [hv, requestCode] at this
      · split at hk'
        · rename_i hx; have := key _ hx; cases hv : q.value <;> simp [hv, setCode] at this
        · simp at hk'
    | cc c s =>
      have : m.take 2 ≠ [176, c] := by
        match m, hm0 with
        | x :: m, hm0 =>
          simp only [List.head?_cons, Option.some.injEq] at hm0
          subst hm0
          simp
      simp [hitKey, this] at hk'
    | pc => simp [hitKey, hm0] at hk'

theorem hit_presel : ∀ i : Fin 44, ∀ t ∈ T[i.val]?, (ccs t).contains 47 = false := by decide +kernel

/-- What a message does to a parameter which is not changed by the callback. -/
theorem receive_val' {d : Device} {p : Player} (h : View d p) (now : Int) (date : List Nat) {m : List Nat} (hm : Midi m) {i : Nat} (hi44 : i < 44)
    {t : Param} (ht : T[i]? = some t)
    (hcb : ∀ (d' : Device) q v, Shape d'.params → fired 2 d.params m = some (q, v) → val (d'.callback q v date).1.params i = val d'.params i) :
    val (d.receive now date m).1.params i = written (t.hit 2 m) (val d.params i) := by
  by_cases h47 : m.take 2 = [176, 47]
  · have hn : t.hit 2 m = none := by
      rcases hm with ⟨c, v, rfl, -, -⟩ | ⟨v, rfl, -⟩ | hm
      · have hc : c = 47 := by simpa using h47
        subst hc
        have := hit_cc_isSome (q := t) (c := 47) (v := v)
        rw [hit_presel ⟨i, hi44⟩ t ht] at this
        simpa using this
      · simp at h47
      · cases m with
        | nil => simp at h47
        | cons x m => simp at hm h47; omega
    rw [hn]
    simp only [Device.receive, if_pos h47, written]
  · by_cases hproto : m.take 9 = [240, 0, 32, 51, 2, 127, 126, 0, 64]
    · rw [receive_proto h now date hproto, hit_proto hproto]
      rfl
    · have hparse : Virtual.receive d.proto d.params now m =
          (d.proto, (parseParams 2 d.proto.parameterSet d.params m).1, (parseParams 2 d.proto.parameterSet d.params m).2) := by
        simp only [Virtual.receive, Virtual.parse, h.product]
        rw [if_pos hproto]
        rfl
      have key : Shape (parseParams 2 d.proto.parameterSet d.params m).1 ∧
          val (parseParams 2 d.proto.parameterSet d.params m).1 i = written (t.hit 2 m) (val d.params i) := by
        rcases parse_cases h.shape d.proto.parameterSet m with ⟨j, q, hit, hj, hq, -, hh, hpp, -⟩ | ⟨hno, hc, -⟩
        · rw [hpp]
          refine ⟨h.shape.set hq (skel_apply _ _ _), ?_⟩
          obtain ⟨q', hq', hs⟩ := h.shape.at hj
          rw [hq] at hq'
          simp only [Option.some.injEq] at hq'
          subst hq'
          by_cases hji : j = i
          · subst hji
            have hts : t = skel q := by rw [ht] at hs; simpa using hs.symm
            have hth : t.hit 2 m = some hit := by rw [hts, hit_skel]; exact hh
            rw [val_set_self hq, hth]
            cases hit with
            | request => simp only [Param.apply, written, val, hq, Option.map_some]
            | set v =>
              have := hit_value hj ht hth
              have : kind v = kind q.value := by
                rw [this, hts, ← zero_kind]
                simp only [skel]
                cases q.value <;> rfl
              rw [apply_value this]
              rfl
          · have hth : t.hit 2 m = none := hit_apart hj hi44 hji hs.symm ht (by rw [hit_skel, hh]; rfl)
            rw [val_set_ne hji, hth]
            rfl
        · refine ⟨hc.shape, ?_⟩
          obtain ⟨q', hq', hs⟩ := h.shape.at hi44
          have hts : t = skel q' := by rw [ht] at hs; simpa using hs.symm
          have hth : t.hit 2 m = none := by rw [hts, hit_skel]; exact hno i q' hi44 hq'
          rw [hth]
          simp only [written, val, hc.base i hi44]
      simp only [Device.receive, if_neg h47, hparse, h.product]
      split
      · exact key.2
      · rename_i q v hf
        rw [hcb { d with proto := d.proto, params := (parseParams 2 d.proto.parameterSet d.params m).1 } q v key.1 hf]
        exact key.2

/-- What a message does to a parameter. -/
theorem receive_val {d : Device} {p : Player} (h : View d p) (now : Int) (date : List Nat) {m : List Nat} (hm : Midi m) {i : Nat} (hi : Own i)
    {t : Param} (ht : T[i]? = some t) :
    val (d.receive now date m).1.params i = written (t.hit 2 m) (val d.params i) :=
  receive_val' h now date hm hi.1 ht fun _ _ _ hs _ => (callback_keep hs _ _ date).vals i hi

/-! ### Which callbacks are called -/

/-- The callbacks of a parameter of the setup. -/
theorem fired_own {d : Device} (h : Shape d.params) {m : List Nat} {j : Nat} (hj : j < 44) {q : Param} (hq : d.params[j]? = some q) {v : PVal}
    (hh : q.hit 2 m = some (.set v)) : fired 2 d.params m = if fires q v then some (q, v) else none := by
  rcases parse_cases h none m with ⟨k, q', hit, hk, hq', -, hh', -, hf⟩ | ⟨hno, -, -⟩
  · have hkj : k = j := by
      by_cases hkj : k = j
      · exact hkj
      · exfalso
        obtain ⟨a, ha, hsa⟩ := h.at hk
        obtain ⟨b, hb, hsb⟩ := h.at hj
        rw [hq'] at ha
        rw [hq] at hb
        simp only [Option.some.injEq] at ha hb
        subst ha hb
        have := hit_apart hk hj hkj hsa.symm hsb.symm (m := m) (by rw [hit_skel, hh']; rfl)
        rw [hit_skel, hh] at this
        simp at this
    subst hkj
    rw [hq] at hq'
    simp only [Option.some.injEq] at hq'
    subst hq'
    rw [hh] at hh'
    simp only [Option.some.injEq] at hh'
    subst hh'
    exact hf
  · rw [hno j q hj hq] at hh
    simp at hh

theorem fired_cases {d : Device} (h : Shape d.params) {m : List Nat} {p : Param} {v : PVal} (hf : fired 2 d.params m = some (p, v)) :
    (∃ j, j < 44 ∧ d.params[j]? = some p ∧ p.hit 2 m = some (.set v) ∧ fires p v = true) ∨
    (Extra p ∧ (p.hit 2 m).isSome ∧ ∀ k q', k < 44 → d.params[k]? = some q' → q'.hit 2 m = none) := by
  rcases parse_cases h none m with ⟨k, q', hit, hk, hq', -, hh', -, hf'⟩ | ⟨hno, -, hx⟩
  · left
    rw [hf'] at hf
    cases hit with
    | request => simp at hf
    | set w =>
      simp only at hf
      split at hf
      · rename_i hfi
        simp only [Option.some.injEq, Prod.mk.injEq] at hf
        obtain ⟨rfl, rfl⟩ := hf
        exact ⟨k, hk, hq', hh', hfi⟩
      · simp at hf
  · exact .inr ⟨(hx p v hf).1, (hx p v hf).2, hno⟩

/-! ### The user interface -/

theorem sends_apart : ∀ i j : Fin 44, i ≠ j → ∀ t ∈ T[i.val]?, ∀ u ∈ T[j.val]?, t.send = u.send → t.send = none := by decide +kernel

theorem ui_val' {d : Device} (h : Shape d.params) (date : List Nat) (page number : Nat) (v : PVal) {i : Nat} (hi : i < 44) {t : Param} (ht : T[i]? = some t)
    (hcb : ∀ (d' : Device) q, Shape d'.params → d.params.find? (fun p => p.send == some (.nrpn [page, number])) = some q →
      val (d'.callback q v date).1.params i = val d'.params i) :
    val (d.ui date (.value page number v)).1.params i =
      if t.send = some (.nrpn [page, number]) ∧ kind v = kind t.value then some v else val d.params i := by
  obtain ⟨qi, hqi, hsi⟩ := h.at hi
  have hts : t = skel qi := by rw [ht] at hsi; simpa using hsi.symm
  have hsend : t.send = qi.send := by rw [hts]; rfl
  have hkind : kind t.value = kind qi.value := by
    rw [hts, ← zero_kind]
    simp only [skel]
    cases qi.value <;> rfl
  simp only [Device.ui]
  cases hf : d.params.find? (fun p => p.send == some (.nrpn [page, number])) with
  | none =>
    rw [if_neg]
    rintro ⟨h1, -⟩
    have := List.find?_eq_none.1 hf qi (List.mem_of_getElem? hqi)
    rw [← hsend, h1] at this
    simp at this
  | some q =>
    simp only
    obtain ⟨g1, j, hj, hjq, g3⟩ := List.find?_eq_some_iff_getElem.1 hf
    have hq : d.params[j]? = some q := by rw [List.getElem?_eq_getElem hj, hjq]
    have hqsend : q.send = some (.nrpn [page, number]) := by simpa using g1
    have hidx : d.params.findIdx? (fun p => p.send == some (.nrpn [page, number])) = some j := by
      rw [List.findIdx?_eq_some_iff_getElem]
      refine ⟨hj, by rw [hjq]; exact g1, ?_⟩
      intro k hk
      have := g3 k hk
      simpa using this
    have hset : Shape (d.setKey (.nrpn [page, number]) v).1.params ∧ val (d.setKey (.nrpn [page, number]) v).1.params i =
        if t.send = some (.nrpn [page, number]) ∧ kind v = kind t.value then some v else val d.params i := by
      have hji : t.send = some (.nrpn [page, number]) → j = i := by
        intro hs
        rcases Nat.lt_trichotomy j i with hlt | heq | hgt
        · exfalso
          obtain ⟨qj, hqj, hsj⟩ := h.at (Nat.lt_trans hlt hi)
          rw [hq] at hqj
          simp only [Option.some.injEq] at hqj
          subst hqj
          have := sends_apart ⟨j, Nat.lt_trans hlt hi⟩ ⟨i, hi⟩ (by simpa using Nat.ne_of_lt hlt) (skel q) hsj.symm t ht
            (by rw [hs]; exact hqsend)
          simp only [skel, hqsend] at this
          simp at this
        · exact heq
        · exfalso
          have := g3 i hgt
          have hqi' : d.params[i]'(Nat.lt_trans hgt hj) = qi := by
            have := List.getElem?_eq_getElem (l := d.params) (i := i) (Nat.lt_trans hgt hj)
            rw [this] at hqi
            simpa using hqi
          rw [hqi', ← hsend, hs] at this
          simp at this
      simp only [Device.setKey, hidx, hq, Option.bind_some]
      rcases setValue_spec q d.proto.parameterSet v with ⟨h1, h2⟩ | ⟨h1, h2⟩ | ⟨h1, h2⟩
      · rw [h1]
        refine ⟨h, ?_⟩
        rw [if_neg]
        rintro ⟨hs, hk⟩
        have := hji hs
        subst this
        rw [hq] at hqi
        simp only [Option.some.injEq] at hqi
        subst hqi
        exact h2 (hk.trans hkind)
      · rw [h1]
        refine ⟨h.set hq rfl, ?_⟩
        by_cases hij : j = i
        · subst hij
          rw [hq] at hqi
          simp only [Option.some.injEq] at hqi
          subst hqi
          rw [if_pos ⟨by rw [hsend]; exact hqsend, by rw [hkind, h2]⟩]
          show val (d.params.set j q) j = some v
          rw [val_set_self hq, h2]
        · rw [if_neg (fun hx => hij (hji hx.1))]
          exact val_set_ne hij
      · rw [h1]
        refine ⟨h.set hq (by simp only [skel]; rw [zero_kind.2 h2]), ?_⟩
        show val (d.params.set j { q with value := v }) i = _
        by_cases hij : j = i
        · subst hij
          rw [hq] at hqi
          simp only [Option.some.injEq] at hqi
          subst hqi
          rw [if_pos ⟨by rw [hsend]; exact hqsend, by rw [hkind, h2]⟩]
          exact val_set_self hq
        · rw [if_neg (fun hx => hij (hji hx.1))]
          exact val_set_ne hij
    split
    · rw [hcb _ _ hset.1 hf]
      exact hset.2
    · exact hset.2

theorem ui_val {d : Device} (h : Shape d.params) (date : List Nat) (page number : Nat) (v : PVal) {i : Nat} (hi : Own i) {t : Param} (ht : T[i]? = some t) :
    val (d.ui date (.value page number v)).1.params i =
      if t.send = some (.nrpn [page, number]) ∧ kind v = kind t.value then some v else val d.params i :=
  ui_val' h date page number v hi.1 ht fun _ _ hs _ => (callback_keep hs _ _ date).vals i hi

/-- Only the rig buttons change the morph state. -/
theorem callback_34 {d : Device} (h : Shape d.params) {p : Param} (hp : ∀ c s, p.receive.head? = some (.cc c s) → ¬(50 ≤ c ∧ c ≤ 54)) (v : PVal) (date : List Nat) :
    val (d.callback p v date).1.params 34 = val d.params 34 := by
  have hset : ∀ n, val (d.setRigId n date).1.params 34 = val d.params 34 := fun n =>
    (setRigId_eq h n date).vals 34 (by decide) (by decide) (by decide) (by decide)
  unfold Device.callback
  split
  · rename_i c s hc
    rw [if_neg (hp c s hc)]
    split
    · unfold Device.onBank
      split
      · exact hset _
      · rfl
    · split
      · unfold Device.onBank
        split
        · exact hset _
        · rfl
      · split <;> rfl
  · split
    · exact (updateRig_same h date).1.vals 34 (by decide) (by decide)
    · rfl
  · rfl

/-- Only the tuner mode switches the tuner. -/
theorem callback_tuner {d : Device} {p : Param} {v : PVal} {date : List Nat}
    (hp : ∀ s, p.receive.head? ≠ some (.cc 31 s)) : (d.callback p v date).1.tunerRunning = d.tunerRunning := by
  have hk : ∀ (d : Device) k w, (d.setKey k w).1.tunerRunning = d.tunerRunning := by
    intro d k w
    unfold Device.setKey
    split
    · rfl
    · split <;> rfl
  have hset : ∀ (d : Device) n, (d.setRigId n date).1.tunerRunning = d.tunerRunning := by
    intro d n
    simp only [Device.setRigId, Device.updateRig, hk]
  unfold Device.callback
  split
  · rename_i c s hc
    split
    · unfold Device.onRig
      dsimp only
      split
      · show (if _ then _ else _ : Device × List (List Nat)).1.tunerRunning = _
        split
        · rw [hk, hset]
        · rw [hset]
      · rfl
    · split
      · unfold Device.onBank
        split
        · exact hset _ _
        · rfl
      · split
        · unfold Device.onBank
          split
          · exact hset _ _
          · rfl
        · rw [if_neg (by rintro rfl; exact hp _ hc)]
  · split
    · simp only [Device.updateRig, hk]
    · rfl
  · rfl

theorem ui_view {d : Device} {p : Player} (h : View d p) (date : List Nat) (page number : Nat) (v : PVal) :
    View (d.ui date (.value page number v)).1 p := (any_step (e := .ui date (.value page number v)) h trivial).1

end PySwitch.Kemper.Setup
