import Verif.Lemmas.StageApp
import Verif.Lemmas.StageDev

/-
One parameter of `Model/Stage.lean` on both sides and on the cables.
-/
namespace PySwitch.Stage
open PySwitch PySwitch.Wire PySwitch.Kemper PySwitch.Kemper.Virtual PySwitch.Kemper.Synced PySwitch.Kemper.Synced.Spec
open PySwitch.Mapping PySwitch.Mapping.Spec
open PySwitch.Kemper.Setup hiding Ev initial

/-! ### What PySwitch is told -/

/-- The mapping listens to the address. -/
structure Listens (p : Table.Param) (page number : Nat) : Prop where
  plain : p.mapping.twoPart = false
  numeric : p.mapping.type = .numeric
  response : ∃ r, p.mapping.response = .one r ∧ Props.GoodTemplate r ∧ ∀ m, Answers m r ↔ Answers m (template page number)

theorem listens_nrpn {p : Table.Param} {page number : Nat} (h1 : p.mapping.twoPart = false) (h2 : p.mapping.type = .numeric)
    (h3 : p.mapping.response = .one (.sysex [0, 32, 51] [2, 127, 1, 0, page, number])) : Listens p page number := by
  refine ⟨h1, h2, _, h3, by simp [Props.GoodTemplate], fun m => ?_⟩
  cases m <;> simp [Answers, template, address]

theorem Listens.none {p : Table.Param} {page number : Nat} (h : Listens p page number) {b : List Nat} {m : Msg}
    (hb : (fromMessageBytes [0] b).1 = some m) (hn : ¬Answering page number b) : told p m = none := by
  obtain ⟨r, h1, h2, h3⟩ := h.response
  have hna : ¬Answers m r := fun ha => hn ⟨m, hb, (h3 m).1 ha⟩
  have := (Props.C17_attribution p.mapping h.plain r h1 h2 m).2 hna
  unfold told
  rw [this]

theorem Listens.some {p : Table.Param} {page number : Nat} (h : Listens p page number) (n : Nat) :
    told p (.sysex [0, 32, 51] [0, 0, 1, 0, page, number, n / 128, n % 128]) = some (n : Int) := by
  obtain ⟨r, h1, h2, h3⟩ := h.response
  obtain ⟨v, ⟨f, x, y, e1, e2⟩, e⟩ := Props.C17_value p.mapping h.plain h.numeric r h1 h2
    (.sysex [0, 32, 51] [0, 0, 1, 0, page, number, n / 128, n % 128]) ((h3 _).2 (by simp [Answers, template, address]))
  unfold told
  rw [e]
  have hl : f.length = 6 := by have := congrArg List.length e1; simp at this; omega
  match f, hl with
  | [_, _, _, _, _, _], _ =>
    simp at e1
    obtain ⟨-, -, -, -, -, -, rfl, rfl⟩ := e1
    simp only [e2, Option.some.injEq]
    omega

theorem listens_type {k : Nat} (hk : k < 4) : Listens (Table.effectType k) (50 + k) 0 := by
  have : k = 0 ∨ k = 1 ∨ k = 2 ∨ k = 3 := by omega
  rcases this with rfl | rfl | rfl | rfl <;> exact listens_nrpn rfl rfl rfl

theorem listens_state {k : Nat} (hk : k < 4) : Listens (Table.effectState k) (50 + k) 3 := by
  have : k = 0 ∨ k = 1 ∨ k = 2 ∨ k = 3 := by omega
  rcases this with rfl | rfl | rfl | rfl <;> exact listens_nrpn rfl rfl rfl

theorem listens_tuner : Listens Table.tunerMode 127 126 := listens_nrpn rfl rfl rfl

theorem answering_ans {page number n : Nat} (hp : page < 128) (hn : number < 128) (h : n < 16384) : Answering page number (ans page number n) :=
  ⟨_, ans_parse page number n hp hn h, by simp [Answers, template, address]⟩

/-! ### What is on the cables -/

def bit (s : Bool) : Nat := if s then 1 else 0

/-- The last message with this control number has the value of `s`. -/
def LastSet (control : Nat) (s : Bool) (l : List (List Nat)) : Prop :=
  ∃ pre post, l = pre ++ [176, control, bit s] :: post ∧ ∀ b ∈ post, b.take 2 ≠ [176, control]

def NoSet (control : Nat) (l : List (List Nat)) : Prop := ∀ b ∈ l, b.take 2 ≠ [176, control]

theorem LastSet.append {c : Nat} {s : Bool} {l o : List (List Nat)} (h : LastSet c s l) (ho : NoSet c o) : LastSet c s (l ++ o) := by
  obtain ⟨pre, post, rfl, hp⟩ := h
  refine ⟨pre, post ++ o, by simp, fun b hb => ?_⟩
  rcases List.mem_append.1 hb with hb | hb
  · exact hp b hb
  · exact ho b hb

theorem LastSet.prepend {c : Nat} {s : Bool} {l o : List (List Nat)} (h : LastSet c s o) : LastSet c s (l ++ o) := by
  obtain ⟨pre, post, rfl, hp⟩ := h
  exact ⟨l ++ pre, post, by simp, hp⟩

/-- PySwitch knows the value `n` (`K n`), or will: the last report on the cable is `n`, or PySwitch knows what it has told the
device (`W s`), which is still on the cable. -/
def Track (page number control : Nat) (K : Nat → Prop) (W : Bool → Prop) (toApp toDev : List (List Nat)) (n : Nat) : Prop :=
  Tail page number toApp n ∨ (Silent page number toApp ∧ (K n ∨ ∃ s, W s ∧ LastSet control s toDev))

/-- The device has done something. -/
theorem Track.device {page number control n n' : Nat} {K : Nat → Prop} {W : Bool → Prop} {toApp toDev toDev' out : List (List Nat)}
    (h : Track page number control K W toApp toDev n)
    (hd : (n' = n ∧ Silent page number out) ∨ Tail page number out n')
    (hk : K n → n' = n → K n')
    (hw : ∀ s, W s → LastSet control s toDev → K n' ∨ LastSet control s toDev') :
    Track page number control K W (toApp ++ out) toDev' n' := by
  rcases hd with ⟨e, hs⟩ | ht
  · rcases h with h | ⟨h1, h2⟩
    · rw [← e] at h; exact Or.inl (h.append_silent hs)
    · refine Or.inr ⟨h1.append hs, ?_⟩
      rcases h2 with h2 | ⟨s, h2, h3⟩
      · exact Or.inl (hk h2 e)
      · rcases hw s h2 h3 with h4 | h4
        · exact Or.inl h4
        · exact Or.inr ⟨s, h2, h4⟩
  · exact Or.inl ht.prepend

/-- PySwitch has written something. -/
theorem Track.write {page number control n : Nat} {K K' : Nat → Prop} {W W' : Bool → Prop} {toApp toDev out : List (List Nat)}
    (h : Track page number control K W toApp toDev n)
    (ho : (NoSet control out ∧ (∀ n, K n → K' n) ∧ ∀ s, W s → W' s) ∨ ∃ s, LastSet control s out ∧ W' s) :
    Track page number control K' W' toApp (toDev ++ out) n := by
  rcases h with h | ⟨h1, h2⟩
  · exact Or.inl h
  · refine Or.inr ⟨h1, ?_⟩
    rcases ho with ⟨o1, o2, o3⟩ | ⟨s, o1, o2⟩
    · rcases h2 with h2 | ⟨s, h2, h3⟩
      · exact Or.inl (o2 n h2)
      · exact Or.inr ⟨s, o3 s h2, h3.append o1⟩
    · exact Or.inr ⟨s, o2, o1.prepend⟩

/-- PySwitch has received something. -/
theorem Track.hear {page number control n : Nat} {K K' : Nat → Prop} {W W' : Bool → Prop} {b : List Nat} {rest toDev : List (List Nat)}
    (h : Track page number control K W (b :: rest) toDev n)
    (hno : ¬Answering page number b → (∀ n, K n → K' n) ∧ ∀ s, W s → W' s) (hyes : b = ans page number n → K' n) :
    Track page number control K' W' rest toDev n := by
  rcases h with ⟨pre, post, e, hp⟩ | ⟨h1, h2⟩
  · match pre, e with
    | [], e =>
      simp only [List.nil_append, List.cons.injEq] at e
      rw [e.2]
      exact Or.inr ⟨hp, Or.inl (hyes e.1)⟩
    | x :: pre, e =>
      simp only [List.cons_append, List.cons.injEq] at e
      exact Or.inl ⟨pre, post, e.2, hp⟩
  · obtain ⟨o1, o2⟩ := hno (h1 b (by simp))
    refine Or.inr ⟨fun x hx => h1 x (by simp [hx]), ?_⟩
    rcases h2 with h2 | ⟨s, h2, h3⟩
    · exact Or.inl (o1 n h2)
    · exact Or.inr ⟨s, o2 s h2, h3⟩

/-- Nothing is under way. -/
theorem Track.quiet {page number control n : Nat} {K : Nat → Prop} {W : Bool → Prop} {toApp toDev : List (List Nat)}
    (h : Track page number control K W toApp toDev n) (hans : Answering page number (ans page number n))
    (h1 : Silent page number toApp) (h2 : NoSet control toDev) : K n := by
  rcases h with ⟨pre, post, rfl, -⟩ | ⟨-, h | ⟨s, -, pre, post, rfl, -⟩⟩
  · exact absurd hans (h1 _ (by simp))
  · exact h
  · exact absurd rfl (h2 [176, control, bit s] (by simp))

/-- The device takes the first message. -/
theorem LastSet.pop {c : Nat} {s : Bool} {b : List Nat} {rest : List (List Nat)} (h : LastSet c s (b :: rest)) :
    b = [176, c, bit s] ∨ LastSet c s rest := by
  obtain ⟨pre, post, e, hp⟩ := h
  match pre, e with
  | [], e => simp only [List.nil_append, List.cons.injEq] at e; exact Or.inl e.1
  | x :: pre, e =>
    simp only [List.cons_append, List.cons.injEq] at e
    exact Or.inr ⟨pre, post, e.2, hp⟩

/-! ### The parameters of the device -/

theorem Shape.grows {ps : List Param} (h : Shape ps) : Grows T ps := by
  intro i t ht
  have hi : i < 44 := by rw [← T_length]; exact (List.getElem?_eq_some_iff.1 ht).1
  obtain ⟨q, h1, h2⟩ := h.at hi
  rw [ht] at h2
  simp only [Option.some.injEq] at h2
  subst h2
  exact ⟨q, h1, rfl, rfl, rfl, (zero_kind.1 (by simp [skel, zero]; cases q.value <;> rfl)).symm⟩

theorem takes_of {i v : Nat} {b : List Nat} (h : ((T.take i).all fun q => (q.hit 2 b).isNone) = true)
    (h' : (T[i]?).bind (fun q => q.hit 2 b) = some (.set (.num v))) : Takes T i b v := by
  refine ⟨fun j hj q hq => ?_, ?_⟩
  · rw [List.all_eq_true] at h
    have := h q (List.mem_of_getElem? (i := j) (by rw [List.getElem?_take, if_pos hj]; exact hq))
    simpa using this
  · cases ht : T[i]? with
    | none => rw [ht] at h'; simp at h'
    | some q => rw [ht] at h'; exact ⟨q, rfl, h'⟩

theorem takes_effect {k : Nat} (hk : k < 4) (s : Bool) {ps : List Param} (h : Shape ps) :
    Takes ps (6 + 2 * k) [176, 17 + k, bit s] (bit s) := by
  refine grows_takes (Shape.grows h) ?_
  have : k = 0 ∨ k = 1 ∨ k = 2 ∨ k = 3 := by omega
  rcases this with rfl | rfl | rfl | rfl <;> cases s <;> exact takes_of (by decide +kernel) (by decide +kernel)

theorem takes_tuner (s : Bool) {ps : List Param} (h : Shape ps) : Takes ps 31 [176, 31, bit s] (bit s) := by
  refine grows_takes (Shape.grows h) ?_
  cases s <;> exact takes_of (by decide +kernel) (by decide +kernel)

/-- The parameters at the beginning. -/
theorem good_table {page number i n : Nat} (date : List Nat) (hp : page < 128) (hn : number < 128)
    (h : ∃ q, (table date)[i]? = some q ∧ q.send = some (.nrpn [page, number]) ∧ .nrpn [page, number] ∈ q.receive ∧ q.value = .num n ∧ 2 ∈ q.sets)
    (ho : ((List.range 44).all fun j => j == i || (match ((table []).map Param.send)[j]? with
      | some (some (.nrpn data)) => data.length == 2 && data != [page, number]
      | _ => true)) = true) : Good page number (table date) i n := by
  refine ⟨hp, hn, h, fun j q hj hq data hd => Or.inr ?_⟩
  have hl : (table date).length = 44 := rfl
  have hj44 : j < 44 := by rw [← hl]; exact (List.getElem?_eq_some_iff.1 hq).1
  rw [List.all_eq_true] at ho
  have := ho j (by simpa using hj44)
  have e : (table []).map Param.send = (table date).map Param.send := rfl
  rw [e, List.getElem?_map, hq] at this
  simp only [Option.map_some, hd, Bool.or_eq_true, beq_iff_eq, hj, false_or, Bool.and_eq_true, bne_iff_ne] at this
  exact this

theorem good_type {k : Nat} (hk : k < 4) (now : Int) (date : List Nat) : ∃ n, Good (50 + k) 0 (Setup.initial now date).params (5 + 2 * k) n := by
  have : ∃ n, Good (50 + k) 0 (table date) (5 + 2 * k) n := by
    have : k = 0 ∨ k = 1 ∨ k = 2 ∨ k = 3 := by omega
    rcases this with rfl | rfl | rfl | rfl
    · exact ⟨8, good_table date (by omega) (by omega) ⟨_, rfl, rfl, by decide, rfl, by decide⟩ (by decide +kernel)⟩
    · exact ⟨13, good_table date (by omega) (by omega) ⟨_, rfl, rfl, by decide, rfl, by decide⟩ (by decide +kernel)⟩
    · exact ⟨38, good_table date (by omega) (by omega) ⟨_, rfl, rfl, by decide, rfl, by decide⟩ (by decide +kernel)⟩
    · exact ⟨50, good_table date (by omega) (by omega) ⟨_, rfl, rfl, by decide, rfl, by decide⟩ (by decide +kernel)⟩
  obtain ⟨n, h⟩ := this
  exact ⟨n, (updateRig_kept (by omega) (d := { proto := Virtual.initial 2 now, params := table date }) h date).good⟩

theorem good_state {k : Nat} (hk : k < 4) (now : Int) (date : List Nat) : ∃ n, Good (50 + k) 3 (Setup.initial now date).params (6 + 2 * k) n := by
  have : ∃ n, Good (50 + k) 3 (table date) (6 + 2 * k) n := by
    have : k = 0 ∨ k = 1 ∨ k = 2 ∨ k = 3 := by omega
    rcases this with rfl | rfl | rfl | rfl
    · exact ⟨1, good_table date (by omega) (by omega) ⟨_, rfl, rfl, by decide, rfl, by decide⟩ (by decide +kernel)⟩
    · exact ⟨1, good_table date (by omega) (by omega) ⟨_, rfl, rfl, by decide, rfl, by decide⟩ (by decide +kernel)⟩
    · exact ⟨0, good_table date (by omega) (by omega) ⟨_, rfl, rfl, by decide, rfl, by decide⟩ (by decide +kernel)⟩
    · exact ⟨1, good_table date (by omega) (by omega) ⟨_, rfl, rfl, by decide, rfl, by decide⟩ (by decide +kernel)⟩
  obtain ⟨n, h⟩ := this
  exact ⟨n, (updateRig_kept (by omega) (d := { proto := Virtual.initial 2 now, params := table date }) h date).good⟩

theorem good_tuner (now : Int) (date : List Nat) : ∃ n, Good 127 126 (Setup.initial now date).params 31 n := by
  have h : Good 127 126 (table date) 31 0 :=
    good_table date (by omega) (by omega) ⟨_, rfl, rfl, by decide, rfl, by decide⟩ (by decide +kernel)
  exact ⟨_, (updateRig_kept (by omega) (d := { proto := Virtual.initial 2 now, params := table date }) h date).good⟩

theorem good_num {page number i n : Nat} {d : Device} (h : Good page number d.params i n) (hs : Shape d.params)
    (hi : T.findIdx? (fun p => p.send == some (.nrpn [page, number])) = some i) : d.num (.nrpn [page, number]) = n := by
  obtain ⟨q, h1, -, -, h2, -⟩ := h.param
  exact num_eq hs hi (by simp [val, h1, h2])

/-- All values of a set are in the order of the parameters. -/
theorem setMessages_order {page page' number number' i i' n n' : Nat} {ps : List Param} (h : Good page number ps i n)
    (h' : Good page' number' ps i' n') (hi : i < i') :
    ∃ pre mid post, setMessages ps 2 = pre ++ ans page number n :: (mid ++ ans page' number' n' :: post) := by
  obtain ⟨q, h1, -, -, -, h4⟩ := h.param
  obtain ⟨q', h1', -, -, -, h4'⟩ := h'.param
  have split : ∀ (l : List Param) (i : Nat) (q : Param), l[i]? = some q → 2 ∈ q.sets → ∃ pre, setMessages l 2 = pre ++ (q.bytes ++ setMessages (l.drop (i + 1)) 2) := by
    intro l i q hq hs
    have hsplit : l = l.take i ++ q :: l.drop (i + 1) := by
      have := List.getElem?_eq_some_iff.1 hq
      rw [← this.2, ← List.drop_eq_getElem_cons, List.take_append_drop]
    refine ⟨((l.take i).filter fun p => p.sets.contains 2).flatMap Param.bytes, ?_⟩
    conv => lhs; rw [hsplit]
    simp only [setMessages, List.filter_append, List.flatMap_append, List.filter_cons]
    rw [if_pos (by simpa using hs)]
    simp only [List.flatMap_cons]
  obtain ⟨pre, e⟩ := split ps i q h1 h4
  obtain ⟨mid, e'⟩ := split (ps.drop (i + 1)) (i' - (i + 1)) q' (by rw [List.getElem?_drop, show i + 1 + (i' - (i + 1)) = i' by omega]; exact h1') h4'
  rw [h.bytes h1] at e
  rw [h'.bytes h1'] at e'
  rw [e'] at e
  exact ⟨pre, mid, _, e⟩

/-- A beacon. -/
theorem receive_beacon {d : Device} (hd : d.proto.productType = 2) (now : Int) (date : List Nat) (flags lease : Nat) :
    (d.receive now date (beaconBytes flags lease)).1.proto.parameterSet = some 2 ∧
    (flags % 2 = 1 → (d.receive now date (beaconBytes flags lease)).2 = setMessages d.params 2) := by
  have hf : ∀ ps, fired 2 ps (beaconBytes flags lease) = none := by
    intro ps
    unfold fired
    rw [List.find?_eq_none.2]
    intro q _
    rw [hit_proto rfl]
    simp
  have hr : Virtual.receive d.proto d.params now (beaconBytes flags lease) = (
      { d.proto with parameterSet := some 2, timeLease := some ⟨lease * 2000, now⟩, connected := true }, d.params,
      if flags % 2 = 1 then setMessages d.params 2 else []) := by
    simp only [Virtual.receive, Virtual.parse, hd, beaconBytes]
    simp
  have h47 : ¬(beaconBytes flags lease).take 2 = [176, 47] := by simp [beaconBytes]
  simp only [Device.receive, if_neg h47, hd, hf, hr]
  exact ⟨trivial, fun h => by rw [if_pos h]⟩

end PySwitch.Stage
