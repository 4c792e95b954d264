import Verif.Spec.Detector
import Verif.Spec.PortScan
import Verif.Lemmas.VirtualMachine

namespace PySwitch.Detector
open PySwitch.Wire PySwitch.Kemper PySwitch.Kemper.Virtual PySwitch.Kemper.Setup PySwitch.Kemper.Synced
open PySwitch.Detector.Spec

/-! ### The search -/

/-- What a message means for the search. -/
def meaning : Ev → Option PortScan.Ev
  | .message i data => if accepts data then some (.answer i) else none
  | .timeout i => some (.timeout i)

theorem search_eq (names : List String) (es : List Ev) : search names es = PortScan.run names false (es.filterMap meaning) := by
  unfold search PortScan.run
  rw [List.foldl_filterMap]
  congr 1
  funext s e
  cases e with
  | message i data => simp only [step, meaning]; split <;> rfl
  | timeout i => rfl

theorem slice_eq {l : List Nat} (h : slice l 2 6 = [1, 0, 4, 1]) : ∃ a b v, l = [a, b, 1, 0, 4, 1] ++ v := by
  match l, h with
  | a :: b :: c :: d :: e :: f :: v, h =>
    simp [slice] at h
    obtain ⟨rfl, rfl, rfl, rfl⟩ := h
    exact ⟨a, b, v, rfl⟩
  | [], h => simp [slice] at h
  | [a], h => simp [slice] at h
  | [a, b], h => simp [slice] at h
  | [a, b, c], h => simp [slice] at h
  | [a, b, c, d], h => simp [slice] at h
  | [a, b, c, d, e], h => simp [slice] at h

theorem accepts_iff (data : List Nat) : accepts data = true ↔ Answer data := by
  constructor
  · intro h
    unfold accepts at h
    split at h
    · simp at h
    · rename_i h1
      simp only at h
      split at h
      · simp at h
      · rename_i h2
        split at h
        · simp at h
        · rename_i h3
          simp only [not_or, Decidable.not_not] at h1 h2 h3
          obtain ⟨a, b, v, hv⟩ := slice_eq h3
          obtain ⟨ha, hb⟩ := h1
          obtain ⟨pre, rfl⟩ := List.getLast?_eq_some_iff.1 hb
          simp only [slice, List.length_append, List.length_singleton, Nat.add_sub_cancel, List.take_left'] at hv
          match pre, ha, h2, hv with
          | x :: y :: z :: w :: rest, ha, h2, hv =>
            simp [slice] at ha h2
            simp only [List.drop_succ_cons, List.drop_zero] at hv
            obtain ⟨rfl, rfl, rfl⟩ := h2
            subst ha hv
            exact ⟨a, b, v, by simp⟩
          | [], ha, h2, hv => simp at hv
          | [x], ha, h2, hv => simp at hv
          | [x, y], ha, h2, hv => simp at hv
          | [x, y, z], ha, h2, hv => simp at hv
  · rintro ⟨a, b, v, rfl⟩
    simp [accepts, slice, List.getLast?_cons]

theorem meaning_answer {e : Ev} {i : Nat} : meaning e = some (.answer i) ↔ ∃ d, e = .message i d ∧ Answer d := by
  cases e with
  | message j d =>
    simp only [meaning]
    split
    · rename_i h
      have := (accepts_iff d).1 h
      constructor
      · intro h; simp at h; subst h; exact ⟨d, rfl, this⟩
      · rintro ⟨d', h, -⟩; simp at h; simp [h.1]
    · rename_i h
      constructor
      · intro h; simp at h
      · rintro ⟨d', h', ha⟩
        simp at h'
        rw [h'.2] at h
        exact absurd ((accepts_iff d').2 ha) h
  | timeout j => simp [meaning]

theorem meaning_timeout {e : Ev} {i : Nat} : meaning e = some (.timeout i) ↔ e = .timeout i := by
  cases e with
  | message j d => simp only [meaning]; split <;> simp
  | timeout j => simp [meaning]

theorem mem_timeout {es : List Ev} {i : Nat} : PortScan.Ev.timeout i ∈ es.filterMap meaning ↔ Ev.timeout i ∈ es := by
  simp only [List.mem_filterMap, meaning_timeout, exists_eq_right]

theorem split_answer {es : List Ev} {i : Nat} {b a : List PortScan.Ev} (h : es.filterMap meaning = b ++ .answer i :: a) :
    ∃ before data after, es = before ++ .message i data :: after ∧ Answer data ∧ before.filterMap meaning = b := by
  obtain ⟨l1, l2, rfl, h1, h2⟩ := List.filterMap_eq_append_iff.1 h
  obtain ⟨m1, x, m2, rfl, h3, h4, h5⟩ := List.filterMap_eq_cons_iff.1 h2
  obtain ⟨d, rfl, hd⟩ := meaning_answer.1 h4
  refine ⟨l1 ++ m1, d, m2, by simp, hd, ?_⟩
  rw [List.filterMap_append, h1, List.filterMap_eq_nil_iff.2 h3, List.append_nil]

theorem noAnswer_iff (n : Nat) (es : List Ev) : PortScan.Spec.NoAnswer n (es.filterMap meaning) ↔ NoAnswer n es := by
  constructor
  · intro h j d b a he hd hj
    have := h j (b.filterMap meaning) (a.filterMap meaning) (by
      rw [he, List.filterMap_append, List.filterMap_cons_some (meaning_answer.2 ⟨d, rfl, hd⟩)])
    rw [← mem_timeout]
    exact Classical.not_not.1 fun hn => this ⟨hj, hn⟩
  · intro h j b a he ho
    obtain ⟨before, d, after, rfl, hd, rfl⟩ := split_answer he
    exact ho.2 (mem_timeout.2 (h j d before after rfl hd ho.1))

theorem firstAnswer_iff (n : Nat) (es : List Ev) (i : Nat) :
    PortScan.Spec.FirstAnswer n (es.filterMap meaning) i ↔ FirstAnswer n es i := by
  constructor
  · rintro ⟨b, a, he, ho, hno⟩
    obtain ⟨before, d, after, rfl, hd, rfl⟩ := split_answer he
    exact ⟨before, d, after, rfl, hd, ho.1, fun hm => ho.2 (mem_timeout.2 hm), (noAnswer_iff n before).1 hno⟩
  · rintro ⟨before, d, after, rfl, hd, hi, ht, hno⟩
    refine ⟨before.filterMap meaning, after.filterMap meaning, ?_, ⟨hi, fun hm => ht (mem_timeout.1 hm)⟩, (noAnswer_iff n before).2 hno⟩
    rw [List.filterMap_append, List.filterMap_cons_some (meaning_answer.2 ⟨d, rfl, hd⟩)]

/-! ### The virtual device -/

/-- What a parameter must be like for the request to be answered. -/
def Ok (t : Param) : Prop :=
  (t.send = some (.nrpn [4, 1]) → t.value = .num 0) ∧
  ∀ data, .nrpn data ∈ t.receive → data <+: [4, 1, 247] → data = [4, 1] ∧ t.send = some (.nrpn [4, 1]) ∧ t.value = .num 0

def OkAll (ps : List Param) : Prop := ∀ t ∈ ps.map skel, Ok t

/-- The state of the device as far as the detection is concerned. -/
def Good (d : Device) : Prop := d.proto.productType = 2 ∧ OkAll d.params

theorem table_ok (date : List Nat) : OkAll (table date) := by
  intro t ht
  have : t ∈ T := by
    have e : (table date).map skel = T := rfl
    rw [← e]; exact ht
  have h : ∀ t ∈ T, t.send ≠ some (.nrpn [4, 1]) ∧ ∀ k ∈ t.receive, k ≠ .nrpn [] ∧ k ≠ .nrpn [4] ∧ k ≠ .nrpn [4, 1] ∧ k ≠ .nrpn [4, 1, 247] := by
    decide +kernel
  obtain ⟨h1, h2⟩ := h t this
  refine ⟨fun e => absurd e h1, fun data hd hp => ?_⟩
  obtain ⟨a1, a2, a3, a4⟩ := h2 _ hd
  rw [List.prefix_iff_eq_take] at hp
  have hl : data.length = 0 ∨ data.length = 1 ∨ data.length = 2 ∨ 3 ≤ data.length := by omega
  rcases hl with hl | hl | hl | hl
  · rw [hl] at hp; subst hp; exact absurd rfl a1
  · rw [hl] at hp; subst hp; exact absurd rfl a2
  · rw [hl] at hp; subst hp; exact absurd rfl a3
  · rw [List.take_of_length_le (by simpa using hl)] at hp; subst hp; exact absurd rfl a4

theorem skel_setValue {p : Param} {set : Option Nat} {v : PVal} {r : Param × List (List Nat)} (h : p.setValue set v = some r) :
    skel r.1 = skel p := by
  have := skel_apply p set (.set v)
  simpa [Param.apply, h] using this

theorem map_skel_set {ps : List Param} {i : Nat} {q q' : Param} (hq : ps[i]? = some q) (hs : skel q' = skel q) :
    (ps.set i q').map skel = ps.map skel := by
  rw [List.map_set, hs]
  apply List.ext_getElem?
  intro j
  by_cases hj : i = j
  · subst hj
    rw [List.getElem?_set_self (by simpa using (List.getElem?_eq_some_iff.1 hq).1), List.getElem?_map, hq]
    rfl
  · rw [List.getElem?_set_ne hj]

/-- The keys and types of the parameters do not change, nor does the product. -/
def Same (d d' : Device) : Prop := d'.proto = d.proto ∧ d'.params.map skel = d.params.map skel

theorem Same.refl (d : Device) : Same d d := ⟨rfl, rfl⟩

theorem Same.trans {a b c : Device} (h : Same a b) (h' : Same b c) : Same a c := ⟨h'.1.trans h.1, h'.2.trans h.2⟩

theorem Same.good {d d' : Device} (h : Same d d') (hg : Good d) : Good d' := by
  refine ⟨by rw [h.1]; exact hg.1, ?_⟩
  unfold OkAll
  rw [h.2]
  exact hg.2

theorem same_setKey (d : Device) (key : Key) (v : PVal) : Same d (d.setKey key v).1 := by
  unfold Device.setKey
  split
  · exact Same.refl d
  · rename_i i hi
    split
    · exact Same.refl d
    · rename_i r hr
      cases hq : d.params[i]? with
      | none => simp [hq] at hr
      | some q =>
        rw [hq, Option.bind_some] at hr
        exact ⟨rfl, map_skel_set hq (skel_setValue hr)⟩

theorem same_updateRig (d : Device) (date : List Nat) : Same d (d.updateRig date).1 :=
  (same_setKey d _ _).trans (same_setKey _ _ _)

theorem same_setRigId (d : Device) (n : Nat) (date : List Nat) : Same d (d.setRigId n date).1 :=
  ((same_setKey d _ _).trans (same_setKey _ _ _)).trans (same_updateRig _ date)

theorem same_onRig (d : Device) (rig : Nat) (v : PVal) (date : List Nat) : Same d (d.onRig rig v date).1 := by
  unfold Device.onRig
  dsimp only
  split
  · split
    · exact (same_setRigId { d with presel := none } _ date).trans (same_setKey _ _ _)
    · exact same_setRigId { d with presel := none } _ date
  · exact ⟨rfl, rfl⟩

theorem same_onBank (d : Device) (up : Bool) (v : PVal) (date : List Nat) : Same d (d.onBank up v date).1 := by
  unfold Device.onBank
  split
  · exact same_setRigId d _ date
  · exact Same.refl d

theorem same_callback (d : Device) (p : Param) (v : PVal) (date : List Nat) : Same d (d.callback p v date).1 := by
  unfold Device.callback
  split
  · split
    · exact same_onRig d _ v date
    · split
      · exact same_onBank d _ v date
      · split
        · exact same_onBank d _ v date
        · split
          · exact ⟨rfl, rfl⟩
          · exact Same.refl d
  · split
    · exact same_updateRig d date
    · exact Same.refl d
  · exact Same.refl d

theorem same_ui (d : Device) (date : List Nat) (e : UiEvent) : Same d (d.ui date e).1 := by
  cases e with
  | rig n => exact same_setRigId d n date
  | value page number v =>
    simp only [Device.ui]
    split
    · exact Same.refl d
    · split
      · exact (same_setKey d _ v).trans (same_callback _ _ v date)
      · exact same_setKey d _ v

theorem good_update {d : Device} (h : Good d) (now : Int) : Good (d.update now).1 := by
  refine ⟨?_, h.2⟩
  simp only [Device.update, Virtual.update]
  split
  · split <;> split <;> exact h.1
  · exact h.1

/-! ### Messages -/

/-- A key which is made for a complete message. -/
theorem slice_complete {m : List Nat} {c : Nat} (hc : Complete m) (h : m.take 8 = [240, 0, 32, 51, 2, 127, c, 0]) :
    Ok { send := some (.nrpn (slice m 8 10)), receive := [.nrpn (slice m 8 10)], value := .num 0 } := by
  refine ⟨fun _ => rfl, fun data hd hp => ?_⟩
  simp only [List.mem_singleton, Key.nrpn.injEq] at hd
  subst hd
  have hm : m = [240, 0, 32, 51, 2, 127, c, 0] ++ m.drop 8 := by rw [← h]; exact (List.take_append_drop 8 m).symm
  generalize m.drop 8 = r at hm
  subst hm
  have hl := hc rfl
  match r, hl, hp with
  | [], hl, hp => simp at hl
  | [x], hl, hp =>
    simp at hl
    subst hl
    simp [slice, List.cons_prefix_cons] at hp
  | x :: y :: r, hl, hp =>
    simp [slice, List.cons_prefix_cons] at hp
    obtain ⟨rfl, rfl⟩ := hp
    exact ⟨rfl, rfl, rfl⟩

theorem ensure_ok {ps : List Param} (h : OkAll ps) {key : Key} (hk : Ok { send := some key, receive := [key], value := .num 0 }) :
    OkAll (ensure ps key) := by
  unfold ensure
  split
  · exact h
  · intro t ht
    simp only [List.map_append, List.map_cons, List.map_nil, List.mem_append, List.mem_singleton] at ht
    rcases ht with ht | rfl
    · exact h t ht
    · exact hk

theorem other_ok {key : Key} (hk : ∀ data, key ≠ .nrpn data) : Ok { send := some key, receive := [key], value := .num 0 } := by
  refine ⟨fun e => absurd (Option.some.inj e) (hk _), fun data hd _ => ?_⟩
  simp only [List.mem_singleton] at hd
  exact absurd hd.symm (hk _)

theorem map_ok {ps : List Param} (h : OkAll ps) (f : Param → Param) (hf : ∀ p, skel (f p) = skel p) : OkAll (ps.map f) := by
  unfold OkAll
  rw [List.map_map, show skel ∘ f = skel from funext hf]
  exact h

theorem default_ok {ps : List Param} (h : OkAll ps) (set : Option Nat) (value : PVal) {m : List Nat} (hc : Complete m)
    {r : List Param × List (List Nat)} (hr : parseDefault 2 set value ps m = some r) : OkAll r.1 := by
  have hcreated : ∀ key, Ok { send := some key, receive := [key], value := .num 0 } →
      OkAll (((ensure ps key).map fun p =>
        if p.send = some key then
          match p.hit 2 m with
          | some h => p.apply set h
          | none => (p, [])
        else (p, [])).map Prod.fst) := by
    intro key hk
    rw [List.map_map]
    apply map_ok (ensure_ok h hk)
    intro p
    simp only [Function.comp]
    split
    · split
      · exact skel_apply _ _ _
      · rfl
    · rfl
  simp only [parseDefault] at hr
  split at hr
  · rename_i h8
    simp only [Option.some.injEq] at hr
    rw [← hr]
    exact ensure_ok h (slice_complete hc h8)
  · split at hr
    · rename_i h8
      simp only [Option.some.injEq] at hr
      rw [← hr]
      exact hcreated _ (slice_complete hc h8)
    · split at hr
      · simp only [Option.some.injEq] at hr
        rw [← hr]
        exact hcreated _ (other_ok (by simp))
      · split at hr
        · simp only [Option.some.injEq] at hr
          rw [← hr]
          exact hcreated _ (other_ok (by simp))
        · simp at hr

theorem params_ok {ps : List Param} (h : OkAll ps) (set : Option Nat) {m : List Nat} (hc : Complete m) : OkAll (parseParams 2 set ps m).1 := by
  unfold parseParams
  rcases parseEntries_spec 2 set m ps with ⟨j, q, hit, h1, h2, h3, h4⟩ | ⟨h1, h2⟩
  · rw [h4]
    unfold OkAll
    dsimp only
    rw [map_skel_set h1 (skel_apply _ _ _)]
    exact h
  · rw [h1]
    dsimp only
    split
    · rename_i r hr
      exact default_ok h set _ hc hr
    · cases hr : parseDefault 2 set (.str []) ps m with
      | none => exact h
      | some r => exact default_ok h set _ hc hr

theorem good_receive {d : Device} (h : Good d) (now : Int) (date : List Nat) {m : List Nat} (hc : Complete m) : Good (d.receive now date m).1 := by
  unfold Device.receive
  split
  · exact h
  · have hr : Good { d with proto := (Virtual.receive d.proto d.params now m).1, params := (Virtual.receive d.proto d.params now m).2.1 } := by
      unfold Virtual.receive
      dsimp only
      split
      · refine ⟨?_, h.2⟩
        simp only [Virtual.parse]
        split <;> exact h.1
      · refine ⟨h.1, ?_⟩
        show OkAll (parseParams d.proto.productType _ _ _).1
        rw [h.1]
        exact params_ok h.2 _ hc
    dsimp only
    split
    · exact hr
    · exact (same_callback _ _ _ date).good hr

/-! ### The whole device -/

open PySwitch.Kemper.Machine

theorem same_setBpm (k : Nat) (m : Machine) (now : Int) (v : Nat) : Same m.dev (Machine.setBpm k m now v).1.dev := by
  induction k generalizing m v with
  | zero => exact Same.refl _
  | succ k ih =>
    unfold Machine.setBpm
    split
    · exact Same.refl _
    · exact (same_ui m.dev [] _).trans (ih _ _)

theorem same_tap (m : Machine) (now : Int) (v : PVal) : Same m.dev (m.tap now v).1.dev := by
  unfold Machine.tap
  split
  · exact Same.refl _
  · split
    · exact Same.refl _
    · dsimp only
      split
      · exact Same.refl _
      · exact same_setBpm 2 _ now _

theorem same_after (m : Machine) (before : Device) (now : Int) (p : Param) (v : PVal) : Same m.dev (m.after before now p v).1.dev := by
  have ht : m.trigger.dev = m.dev := (trigger_same m).1
  unfold Machine.after
  split
  · split
    · exact same_tap m now _
    · split
      · dsimp only
        split
        · rw [ht]; exact Same.refl _
        · exact Same.refl _
      · split
        · dsimp only; rw [ht]; exact Same.refl _
        · exact Same.refl _
  · split
    · exact same_setBpm 2 _ now _
    · exact Same.refl _
  · exact Same.refl _

theorem good_machine {m : Machine} (h : Good m.dev) {e : Machine.Ev} (he : Spec.Proper e) : Good (m.step e).1.dev := by
  cases e with
  | receive now date msg =>
    have hr : Good (m.dev.receive now date msg).1 := good_receive h now date he
    unfold Machine.step Machine.receive
    dsimp only
    split
    · exact hr
    · split
      · exact hr
      · exact (same_after { m with dev := (m.dev.receive now date msg).1 } m.dev now _ _).good hr
  | update now =>
    have h1 : Good (m.dev.update now).1 := good_update h now
    have h2 : ∀ m : Machine, Good m.dev → Good (m.beat now).1.dev := by
      intro m hm
      unfold Machine.beat
      split
      · exact hm
      · split
        · exact (same_ui m.dev [] _).good hm
        · exact hm
    have h3 : ∀ m : Machine, Good m.dev → Good (m.tune now).1.dev := by
      intro m hm
      unfold Machine.tune
      split
      · dsimp only
        split
        · exact hm
        · exact hm
      · exact hm
    have h4 : ∀ m : Machine, Good m.dev → Good m.morph.1.dev := by
      intro m hm
      unfold Machine.morph
      split
      · exact hm
      · dsimp only
        split
        · exact hm
        · exact (same_ui m.dev [] _).good hm
    exact h4 _ (h3 _ (h2 _ h1))
  | use now date u =>
    cases u with
    | tempo bpm => exact (same_setBpm 2 _ now _).good h
    | rigButton on => exact h
    | dev e =>
      have hu := same_ui m.dev date e
      unfold Machine.step Machine.use
      dsimp only
      split
      · exact hu.good h
      · split
        · exact hu.good h
        · split
          · exact (hu.trans (same_after { m with dev := (m.dev.ui date _).1 } m.dev now _ _)).good h
          · exact hu.good h

theorem good_run {m : Machine} (h : Good m.dev) (es : List Machine.Ev) (he : ∀ e ∈ es, Spec.Proper e) : Good (m.run es).1.dev := by
  induction es generalizing m with
  | nil => exact h
  | cons e es ih =>
    exact ih (good_machine h (he e List.mem_cons_self)) fun x hx => he x (List.mem_cons_of_mem _ hx)

theorem good_initial (bug : Bool) (now : Int) (date : List Nat) : Good (Machine.initial bug now date).dev :=
  (same_updateRig { proto := Virtual.initial 2 now, params := table date } date).good ⟨rfl, table_ok date⟩

/-! ### The answer -/

theorem value_num {p : Param} (h : (skel p).value = .num 0) : ∃ n, p.value = .num n := by
  simp only [skel] at h
  cases hv : p.value with
  | num n => exact ⟨n, rfl⟩
  | str s => rw [hv] at h; simp [zero] at h

theorem bytes_answer {p : Param} {n : Nat} (hs : p.send = some (.nrpn [4, 1])) (hv : p.value = .num n) :
    p.bytes = [[240, 0, 32, 51, 0, 0, 1, 0, 4, 1] ++ [n / 128, n % 128] ++ [247]] := by
  simp [Param.bytes, hs, hv, setCode, encode]

theorem hit_request {p : Param} (hp : Ok (skel p)) {h : Hit} (hh : p.hit 2 request = some h) :
    h = .request ∧ ∃ n, p.bytes = [[240, 0, 32, 51, 0, 0, 1, 0, 4, 1] ++ [n / 128, n % 128] ++ [247]] := by
  unfold Param.hit at hh
  obtain ⟨k, hk, hk'⟩ := List.exists_of_findSome?_eq_some hh
  cases k with
  | cc c s => simp [hitKey, request] at hk'
  | pc => simp [hitKey, request] at hk'
  | nrpn data =>
    have hpre : data <+: [4, 1, 247] := by
      have key : ∀ c : Nat, request.take (8 + data.length) = [240, 0, 32, 51, 2, 127, c, 0] ++ data → data <+: [4, 1, 247] := by
        intro c e
        have : [4, 1, 247].take data.length = data := by
          have := congrArg (List.drop 8) e
          rw [List.drop_take, Nat.add_sub_cancel_left] at this
          exact this
        rw [← this]
        exact List.take_prefix _ _
      simp only [hitKey] at hk'
      split at hk'
      · rename_i e; exact key _ e
      · split at hk'
        · rename_i e; exact key _ e
        · simp at hk'
    obtain ⟨rfl, h2, h3⟩ := hp.2 data hk hpre
    obtain ⟨n, hn⟩ := value_num h3
    refine ⟨?_, n, bytes_answer h2 hn⟩
    rw [hn] at hk'
    have : hitKey 2 (.num n) request (.nrpn [4, 1]) = some .request := by rfl
    rw [this] at hk'
    exact (Option.some.inj hk').symm

theorem params_request {ps : List Param} (h : OkAll ps) (set : Option Nat) :
    ∃ n, (parseParams 2 set ps request).2 = [[240, 0, 32, 51, 0, 0, 1, 0, 4, 1] ++ [n / 128, n % 128] ++ [247]] := by
  unfold parseParams
  rcases parseEntries_spec 2 set request ps with ⟨j, q, hit, h1, h2, h3, h4⟩ | ⟨h1, h2⟩
  · rw [h4]
    obtain ⟨rfl, n, hn⟩ := hit_request (h _ (List.mem_map_of_mem (List.mem_of_getElem? h1))) h3
    exact ⟨n, hn⟩
  · rw [h1]
    have hd : parseDefault 2 set (.num 0) ps request = some (ensure ps (.nrpn [4, 1]), sendOf (ensure ps (.nrpn [4, 1])) (.nrpn [4, 1])) := rfl
    rw [hd]
    dsimp only
    have hk : Ok { send := some (.nrpn [4, 1]), receive := [.nrpn [4, 1]], value := .num 0 } :=
      slice_complete (m := request) (c := 65) (fun _ => rfl) rfl
    have hok := ensure_ok h hk
    unfold sendOf
    cases hf : (ensure ps (.nrpn [4, 1])).find? (fun p => p.send == some (.nrpn [4, 1])) with
    | none =>
      exfalso
      rw [List.find?_eq_none] at hf
      unfold ensure at hf
      split at hf
      · rename_i ha
        rw [List.any_eq_true] at ha
        obtain ⟨p, hp, he⟩ := ha
        exact hf p hp he
      · exact hf _ (List.mem_append_right _ (List.mem_singleton.2 rfl)) (by simp)
    | some p =>
      have hs : p.send = some (.nrpn [4, 1]) := by simpa using List.find?_some hf
      obtain ⟨n, hn⟩ := value_num ((hok _ (List.mem_map_of_mem (List.mem_of_find?_eq_some hf))).1 hs)
      exact ⟨n, bytes_answer hs hn⟩

end PySwitch.Detector
