import Verif.Spec.Synced
import Verif.Props.Wire

namespace PySwitch.Kemper.Synced
open PySwitch.Wire PySwitch.Wire.Spec PySwitch.Mapping PySwitch.Mapping.Spec PySwitch.Kemper.Virtual
open PySwitch.Kemper.Synced.Spec

/-! ### Which bytes are taken as values -/

theorem parse_sysex_head (b : List Nat) (h0 : b[0]? = some 240) (h1 : b[1]? = some 0) (m : Msg)
    (h : (fromMessageBytes [0] b).1 = some m) :
    (∃ man k, m = .sysex man ((b.drop 4).take k)) ∨ ∃ x, m = .bad x := by
  have hs := status_sysex
  rw [fromMessageBytes, loop_step [0] b b.length 0 0 240 h0 hs.1] at h
  have hm : matchStatus b 0 0 240 registered = ⟨some .sysex, true, (searchEom b 0xF7 1).2.1,
      (searchEom b 0xF7 1).2.2, (searchEom b 0xF7 1).1⟩ :=
    matchStatus_sysex b 0 0 240 _ (by decide) (by omega)
  rw [hm] at h
  simp only at h
  generalize searchEom b 0xF7 1 = r at h
  obtain ⟨e, g, bt⟩ := r
  simp only at h
  cases g with
  | false => simp at h
  | true =>
    simp only [if_true] at h
    cases hx : (slice b 0 e)[1]? with
    | none =>
      have hf : fromBytes .sysex (slice b 0 e) = .bad (slice b 0 e) := by simp only [fromBytes, hx]
      rw [hf] at h
      simp [Msg.channel] at h
      exact .inr ⟨_, h.symm⟩
    | some y =>
      have hy : y = 0 := by
        simp only [slice, List.drop_zero] at hx
        rw [List.getElem?_take] at hx
        split at hx
        · rw [h1] at hx; simpa using hx.symm
        · simp at hx
      subst hy
      have hf : fromBytes .sysex (slice b 0 e) = .sysex (slice (slice b 0 e) 1 4)
          (slice (slice b 0 e) 4 ((slice b 0 e).length - 1)) := by simp only [fromBytes, hx]; simp
      rw [hf] at h
      simp [Msg.channel] at h
      refine .inl ⟨slice (slice b 0 e) 1 4, min ((slice b 0 e).length - 1) e - 4, ?_⟩
      rw [← h]
      simp only [slice, List.drop_zero, List.take_take, List.drop_take, Nat.sub_zero]

theorem parse_channel_head (b : List Nat) (x : Nat) (hx : x = 176 ∨ x = 192) (h0 : b[0]? = some x)
    (hl : b.length = if x = 176 then 3 else 2) (m : Msg) (h : (fromMessageBytes [0] b).1 = some m) :
    ∀ man d, m ≠ .sysex man d := by
  rintro man d rfl
  rcases hx with rfl | rfl
  · match b, hl with
    | [_, c, v], _ =>
      simp only [List.getElem?_cons_zero, Option.some.injEq] at h0
      subst h0
      rw [fromMessageBytes, loop_step [0] _ _ 0 0 176 rfl (by decide)] at h
      simp [matchStatus, registered, MsgClass.status, MsgClass.mask, MsgClass.length, slice, fromBytes] at h
      by_cases hc : c ≤ 127 ∧ v ≤ 127
      · simp [hc, Msg.channel, channelFilter] at h
      · simp [hc, Msg.channel] at h
  · match b, hl with
    | [_, c], _ =>
      simp only [List.getElem?_cons_zero, Option.some.injEq] at h0
      subst h0
      rw [fromMessageBytes, loop_step [0] _ _ 0 0 192 rfl (by decide)] at h
      simp [matchStatus, registered, MsgClass.status, MsgClass.mask, MsgClass.length, slice, fromBytes] at h
      by_cases hc : c ≤ 127
      · simp [hc, Msg.channel, channelFilter] at h
      · simp [hc, Msg.channel] at h

theorem answering_sysex {page number : Nat} {b : List Nat} (h0 : b[0]? = some 240) (h1 : b[1]? = some 0)
    (h : Answering page number b) :
    b[6]? = some 1 ∧ b[7]? = some 0 ∧ b[8]? = some page ∧ b[9]? = some number := by
  obtain ⟨m, hm, ha⟩ := h
  rcases parse_sysex_head b h0 h1 m hm with ⟨man, k, rfl⟩ | ⟨x, rfl⟩
  · obtain ⟨-, ha⟩ := ha
    simp only [address, List.getElem?_take, List.getElem?_drop] at ha
    simp at ha
    grind
  · exact ha.elim

/-- The bytes with which the device sends the value `n`. -/
def ans (page number n : Nat) : List Nat := [240, 0, 32, 51, 0, 0, 1, 0, page, number, n / 128, n % 128, 247]

theorem ans_parse (page number n : Nat) (hp : page < 128) (hn : number < 128) (h : n < 16384) :
    (fromMessageBytes [0] (ans page number n)).1 =
      some (.sysex [0, 32, 51] [0, 0, 1, 0, page, number, n / 128, n % 128]) := by
  have := Props.C04_round_trip [0] 0 (.sysex [0, 32, 51] [0, 0, 1, 0, page, number, n / 128, n % 128]) []
    ⟨by omega, by omega, by intro b hb; simp at hb; omega⟩ (.inl rfl) (by simp)
  rw [List.append_nil] at this
  rw [show ans page number n = toBytes 0 (.sysex [0, 32, 51] [0, 0, 1, 0, page, number, n / 128, n % 128]) from rfl, this]

/-! ### One parameter -/

/-- Number or text? -/
def kind : PVal → Bool
  | .num _ => true
  | .str _ => false

/-- Everything but the value is the same. -/
structure Static (q p : Param) : Prop where
  send : q.send = p.send
  receive : q.receive = p.receive
  sets : q.sets = p.sets
  kind : kind q.value = kind p.value

theorem Static.refl (p : Param) : Static p p := ⟨rfl, rfl, rfl, rfl⟩

theorem Static.trans {a b c : Param} (h : Static a b) (h' : Static b c) : Static a c :=
  ⟨h.send.trans h'.send, h.receive.trans h'.receive, h.sets.trans h'.sets, h.kind.trans h'.kind⟩

theorem hitKey_kind (pt : Nat) (v w : PVal) (h : kind v = kind w) (b : List Nat) (k : Key) :
    hitKey pt v b k = hitKey pt w b k := by
  cases v <;> cases w <;> simp [kind] at h <;> cases k <;> rfl

theorem Static.hit {q p : Param} (h : Static q p) (pt : Nat) (b : List Nat) : q.hit pt b = p.hit pt b := by
  simp only [Param.hit, h.receive]
  congr 1
  funext k
  exact hitKey_kind pt _ _ h.kind b k

theorem setValue_spec (p : Param) (set : Option Nat) (v : PVal) :
    (p.setValue set v = none ∧ kind v ≠ kind p.value) ∨
    (p.setValue set v = some (p, []) ∧ p.value = v) ∨
    (p.setValue set v = some ({ p with value := v },
      if set.any (fun s => p.sets.contains s) then ({ p with value := v } : Param).bytes else []) ∧
      kind v = kind p.value) := by
  simp only [Param.setValue]
  by_cases h : p.noBuffer = false ∧ p.value = v
  · rw [if_pos h]; exact .inr (.inl ⟨rfl, h.2⟩)
  · rw [if_neg h]
    cases hv : p.value <;> cases v <;> simp [kind]

/-- What a message does to a parameter of the active set: the value does not change and nothing is sent,
or the value is sent. -/
theorem apply_spec (p : Param) (set : Option Nat) (h : Hit) :
    Static (p.apply set h).1 p ∧
    ((p.apply set h).2 = (p.apply set h).1.bytes ∨ (p.apply set h).2 = []) ∧
    (set.any (fun s => p.sets.contains s) = true →
      (p.apply set h).2 = (p.apply set h).1.bytes ∨ ((p.apply set h).2 = [] ∧ (p.apply set h).1 = p)) ∧
    (∀ n, kind p.value = true → h = .set (.num n) → (p.apply set h).1.value = .num n) := by
  cases h with
  | request => simp [Param.apply, Static.refl]
  | set v =>
    simp only [Param.apply]
    rcases setValue_spec p set v with ⟨h1, h2⟩ | ⟨h1, h2⟩ | ⟨h1, h2⟩
    · rw [h1]
      refine ⟨.refl _, .inr rfl, fun _ => .inr ⟨rfl, rfl⟩, ?_⟩
      intro n hk hn
      simp only [Hit.set.injEq] at hn
      subst hn
      exact absurd hk.symm h2
    · rw [h1]
      refine ⟨.refl _, .inr rfl, fun _ => .inr ⟨rfl, rfl⟩, ?_⟩
      intro n hk hn
      simp only [Hit.set.injEq] at hn
      subst hn
      exact h2
    · rw [h1]
      simp only [Option.getD_some]
      refine ⟨⟨rfl, rfl, rfl, h2⟩, ?_, ?_, ?_⟩
      · split <;> simp
      · intro hs; rw [if_pos hs]; exact .inl rfl
      · intro n hk hn
        simpa using hn

/-- Parameters which are not sent with the address. -/
def Other (page number : Nat) (q : Param) : Prop :=
  ∀ data, q.send = some (.nrpn data) → data = [247] ∨ (data.length = 2 ∧ data ≠ [page, number])

theorem Other.static {page number : Nat} {q p : Param} (h : Other page number p) (hs : Static q p) :
    Other page number q := by
  intro data hd
  rw [hs.send] at hd
  exact h data hd

theorem other_quiet {page number : Nat} (hp : page < 128) {q : Param} (h : Other page number q) :
    ∀ b ∈ q.bytes, ¬Answering page number b := by
  intro b hb ha
  simp only [Param.bytes] at hb
  split at hb
  · simp at hb
  · rename_i v data hsend
    simp only [List.mem_singleton] at hb
    subst hb
    have h9 := answering_sysex (by simp) (by simp) ha
    simp at h9
    rcases h data hsend with rfl | ⟨h2, h3⟩
    · simp at h9; omega
    · match data, h2 with
      | [x, y], _ =>
        simp at h9
        apply h3
        simp [h9]
  · rename_i c scale n hsend
    simp only [List.mem_singleton] at hb
    subst hb
    obtain ⟨m, hm, ha⟩ := ha
    have := parse_channel_head _ 176 (.inl rfl) (by simp) (by simp) m hm
    cases m <;> simp_all [Answers, template]
  · rename_i n hsend
    simp only [List.mem_singleton] at hb
    subst hb
    obtain ⟨m, hm, ha⟩ := ha
    have := parse_channel_head _ 192 (.inr rfl) (by simp) (by simp) m hm
    cases m <;> simp_all [Answers, template]
  · simp at hb

/-- The last value on the cable is `n`. -/
def Tail (page number : Nat) (l : List (List Nat)) (n : Nat) : Prop :=
  ∃ pre post, l = pre ++ ans page number n :: post ∧ ∀ b ∈ post, ¬Answering page number b

/-- There is no value on the cable. -/
def Silent (page number : Nat) (l : List (List Nat)) : Prop := ∀ b ∈ l, ¬Answering page number b

theorem Tail.append_silent {page number : Nat} {l o : List (List Nat)} {n : Nat} (h : Tail page number l n)
    (ho : Silent page number o) : Tail page number (l ++ o) n := by
  obtain ⟨pre, post, rfl, hp⟩ := h
  refine ⟨pre, post ++ o, by simp, ?_⟩
  intro b hb
  rcases List.mem_append.1 hb with hb | hb
  · exact hp b hb
  · exact ho b hb

theorem Tail.prepend {page number : Nat} {l o : List (List Nat)} {n : Nat} (h : Tail page number o n) :
    Tail page number (l ++ o) n := by
  obtain ⟨pre, post, rfl, hp⟩ := h
  exact ⟨l ++ pre, post, by simp, hp⟩

theorem Silent.append {page number : Nat} {l o : List (List Nat)} (h : Silent page number l)
    (ho : Silent page number o) : Silent page number (l ++ o) := by
  intro b hb
  rcases List.mem_append.1 hb with hb | hb
  · exact h b hb
  · exact ho b hb

/-- The parameters of the device, with the one at position `i`. -/
structure Good (page number : Nat) (ps : List Param) (i : Nat) (n : Nat) : Prop where
  p7 : page < 128
  n7 : number < 128
  param : ∃ q, ps[i]? = some q ∧ q.send = some (.nrpn [page, number]) ∧ .nrpn [page, number] ∈ q.receive ∧
    q.value = .num n ∧ 2 ∈ q.sets
  others : ∀ j q, j ≠ i → ps[j]? = some q → Other page number q

theorem Good.bytes {page number i n : Nat} {ps : List Param} (h : Good page number ps i n) {q : Param}
    (hq : ps[i]? = some q) : q.bytes = [ans page number n] := by
  obtain ⟨q', h1, h2, -, h3, -⟩ := h.param
  rw [hq] at h1
  simp only [Option.some.injEq] at h1
  subst h1
  simp [Param.bytes, h2, h3, ans, setCode, encode]

theorem tail_single (page number n : Nat) : Tail page number [ans page number n] n :=
  ⟨[], [], rfl, by simp⟩

/-- All values of the set. -/
theorem setMessages_tail {page number i n : Nat} {ps : List Param} (h : Good page number ps i n) :
    Tail page number (setMessages ps 2) n := by
  obtain ⟨q, h1, h2, -, h3, h4⟩ := h.param
  have hi := (List.getElem?_eq_some_iff.1 h1).1
  have hb := h.bytes h1
  have hsplit : ps = ps.take i ++ q :: ps.drop (i + 1) := by
    have := List.getElem?_eq_some_iff.1 h1
    rw [← this.2, ← List.drop_eq_getElem_cons, List.take_append_drop]
  rw [hsplit]
  simp only [setMessages, List.filter_append, List.flatMap_append, List.filter_cons]
  rw [if_pos (by simpa using h4)]
  simp only [List.flatMap_cons, hb]
  refine ⟨((ps.take i).filter fun p => p.sets.contains 2).flatMap Param.bytes,
    ((ps.drop (i + 1)).filter fun p => p.sets.contains 2).flatMap Param.bytes, by simp, ?_⟩
  intro b hb'
  simp only [List.mem_flatMap, List.mem_filter] at hb'
  obtain ⟨q', ⟨hq', -⟩, hb'⟩ := hb'
  obtain ⟨k, hk⟩ := List.mem_iff_getElem?.1 hq'
  rw [List.getElem?_drop] at hk
  exact other_quiet h.p7 (h.others _ q' (by omega) hk) b hb'

/-! ### All parameters -/

theorem parseEntries_spec (pt : Nat) (set : Option Nat) (b : List Nat) (ps : List Param) :
    (∃ j q h, ps[j]? = some q ∧ (∀ k q', k < j → ps[k]? = some q' → q'.hit pt b = none) ∧ q.hit pt b = some h ∧
      parseEntries pt set b ps = some (ps.set j (q.apply set h).1, (q.apply set h).2)) ∨
    (parseEntries pt set b ps = none ∧ ∀ q ∈ ps, q.hit pt b = none) := by
  induction ps with
  | nil => right; simp [parseEntries]
  | cons p ps ih =>
    simp only [parseEntries]
    cases hh : p.hit pt b with
    | some h => exact .inl ⟨0, p, h, rfl, by omega, hh, rfl⟩
    | none =>
      rcases ih with ⟨j, q, h, h1, h2, h3, h4⟩ | ⟨h1, h2⟩
      · refine .inl ⟨j + 1, q, h, by simpa using h1, ?_, h3, ?_⟩
        · intro k q' hk hq'
          cases k with
          | zero => simp at hq'; rw [← hq']; exact hh
          | succ k => exact h2 k q' (by omega) (by simpa using hq')
        · simp [h4]
      · refine .inr ⟨by simp [h1], ?_⟩
        intro q hq
        rcases List.mem_cons.1 hq with rfl | hq
        · exact hh
        · exact h2 q hq

/-- The old parameters are still there. -/
def Grows (ps ps' : List Param) : Prop :=
  ∀ (j : Nat) (q : Param), ps[j]? = some q → ∃ q', ps'[j]? = some q' ∧ Static q' q

theorem Grows.refl (ps : List Param) : Grows ps ps := fun _ q h => ⟨q, h, .refl q⟩

theorem Grows.trans {a b c : List Param} (h : Grows a b) (h' : Grows b c) : Grows a c := by
  intro j q hq
  obtain ⟨q', h1, h2⟩ := h j q hq
  obtain ⟨q'', h3, h4⟩ := h' j q' h1
  exact ⟨q'', h3, h4.trans h2⟩

theorem grows_set (ps : List Param) (j : Nat) (q q' : Param) (h : ps[j]? = some q) (hs : Static q' q) :
    Grows ps (ps.set j q') := by
  intro k r hr
  by_cases hk : k = j
  · subst hk
    rw [h] at hr
    simp only [Option.some.injEq] at hr
    subst hr
    exact ⟨q', by simp [(List.getElem?_eq_some_iff.1 h).1], hs⟩
  · exact ⟨r, by simp [Ne.symm hk, hr], .refl r⟩

theorem grows_takes {ps ps' : List Param} (h : Grows ps ps') {i v : Nat} {b : List Nat} (ht : Takes ps i b v) :
    Takes ps' i b v := by
  obtain ⟨h1, q, h2, h3⟩ := ht
  refine ⟨?_, ?_⟩
  · intro j hj q' hq'
    have hi := (List.getElem?_eq_some_iff.1 h2).1
    obtain ⟨r, hr, hs⟩ := h j ps[j] (List.getElem?_eq_getElem (by omega))
    rw [hq'] at hr
    simp only [Option.some.injEq] at hr
    subst hr
    rw [hs.hit]
    exact h1 j hj _ (List.getElem?_eq_getElem (by omega))
  · obtain ⟨q', h4, h5⟩ := h i q h2
    exact ⟨q', h4, by rw [h5.hit]; exact h3⟩

/-- Setting one parameter keeps the parameters in order. -/
theorem good_set {page number i n : Nat} {ps : List Param} (h : Good page number ps i n) (j : Nat) (q q' : Param)
    (hq : ps[j]? = some q) (hs : Static q' q) :
    ∃ n', Good page number (ps.set j q') i n' ∧ (j ≠ i → n' = n) ∧ (j = i → q'.value = .num n') := by
  have hlt := (List.getElem?_eq_some_iff.1 hq).1
  obtain ⟨p, h1, h2, h3, h4, h5⟩ := h.param
  by_cases hji : j = i
  · subst hji
    rw [hq] at h1
    simp only [Option.some.injEq] at h1
    subst h1
    have hk := hs.kind
    rw [h4] at hk
    cases hv : q'.value with
    | str cs => rw [hv] at hk; simp [kind] at hk
    | num n' =>
      refine ⟨n', ⟨h.p7, h.n7, ⟨q', by simp [hlt], by rw [hs.send, h2], by rw [hs.receive]; exact h3, hv,
        by rw [hs.sets]; exact h5⟩, ?_⟩, by simp, by simp⟩
      intro k r hk' hr
      rw [List.getElem?_set_ne (Ne.symm hk')] at hr
      exact h.others k r hk' hr
  · refine ⟨n, ⟨h.p7, h.n7, ⟨p, by rw [List.getElem?_set_ne hji]; exact h1, h2, h3, h4, h5⟩, ?_⟩, by simp,
      fun hx => absurd hx hji⟩
    intro k r hk' hr
    by_cases hkj : k = j
    · subst hkj
      simp only [List.getElem?_set_self hlt, Option.some.injEq] at hr
      subst hr
      exact (h.others k q hji hq).static hs
    · rw [List.getElem?_set_ne (Ne.symm hkj)] at hr
      exact h.others k r hk' hr

/-- A message which is sent by PySwitch: SysEx messages have an end. -/
def Ended (b : List Nat) : Prop := b.head? = some 240 → b.getLast? = some 247

theorem good_ensure {page number i n : Nat} {ps : List Param} (h : Good page number ps i n) (key : Key)
    (hk : ∀ data, key = .nrpn data → data = [247] ∨ data.length = 2) :
    Good page number (ensure ps key) i n ∧ Grows ps (ensure ps key) ∧
    (ensure ps key = ps ∨ (ensure ps key = ps ++ [{ send := some key, receive := [key], value := .num 0 }] ∧
      Other page number { send := some key, receive := [key], value := .num 0 })) := by
  unfold ensure
  split
  · exact ⟨h, .refl _, .inl rfl⟩
  · rename_i hno
    obtain ⟨p, h1, h2, h3, h4, h5⟩ := h.param
    have hlt := (List.getElem?_eq_some_iff.1 h1).1
    have hother : Other page number { send := some key, receive := [key], value := .num 0 } := by
      intro data hd
      simp only [Option.some.injEq] at hd
      rcases hk data hd with hd' | hd'
      · exact .inl hd'
      · refine .inr ⟨hd', ?_⟩
        rintro rfl
        apply hno
        rw [List.any_eq_true]
        exact ⟨p, List.mem_of_getElem? h1, by simp [h2, hd]⟩
    refine ⟨⟨h.p7, h.n7, ⟨p, by rw [List.getElem?_append_left hlt]; exact h1, h2, h3, h4, h5⟩, ?_⟩, ?_,
      .inr ⟨rfl, hother⟩⟩
    · intro j q hj hq
      by_cases hl : j < ps.length
      · rw [List.getElem?_append_left hl] at hq
        exact h.others j q hj hq
      · rw [List.getElem?_append_right (by omega)] at hq
        have hq' := List.mem_of_getElem? hq
        simp only [List.mem_singleton] at hq'
        subst hq'
        exact hother
    · intro j q hq
      exact ⟨q, by rw [List.getElem?_append_left (List.getElem?_eq_some_iff.1 hq).1]; exact hq, .refl q⟩

theorem sendOf_effect {page number i n : Nat} {ps : List Param} (h : Good page number ps i n) (key : Key) :
    Silent page number (sendOf ps key) ∨ Tail page number (sendOf ps key) n := by
  unfold sendOf
  cases hf : ps.find? (fun p => p.send == some key) with
  | none => left; simp [Silent]
  | some q =>
    simp only [Option.map_some, Option.getD_some]
    obtain ⟨j, hj⟩ := List.mem_iff_getElem?.1 (List.mem_of_find?_eq_some hf)
    by_cases hji : j = i
    · subst hji
      right
      rw [h.bytes hj]
      exact tail_single _ _ _
    · exact .inl (other_quiet h.p7 (h.others j q hji hj))

theorem nrpn_key (b : List Nat) (he : Ended b) (x y : Nat) (h : b.take 8 = [240, 0, 32, 51, x, 127, y, 0]) :
    slice b 8 10 = [247] ∨ (slice b 8 10).length = 2 := by
  match b, h with
  | b0 :: b1 :: b2 :: b3 :: b4 :: b5 :: b6 :: b7 :: rest, h =>
    simp at h
    obtain ⟨rfl, rfl, rfl, rfl, rfl, rfl, rfl, rfl⟩ := h
    have := he rfl
    match rest with
    | [] => simp at this
    | [z] => left; simpa [slice] using this
    | z :: w :: rest => right; simp [slice]

/-- What the defaults do. -/
theorem default_effect {page number i n : Nat} {ps : List Param} (h : Good page number ps i n) (pt : Nat)
    (set : Option Nat) (value : PVal) (b : List Nat) (he : Ended b) (hno : ∀ q ∈ ps, q.hit pt b = none)
    (r : List Param × List (List Nat)) (hr : parseDefault pt set value ps b = some r) :
    Good page number r.1 i n ∧ Grows ps r.1 ∧ (Silent page number r.2 ∨ Tail page number r.2 n) := by
  have hcreated : ∀ key : Key, (∀ data, key = .nrpn data → data = [247] ∨ data.length = 2) →
      let go := (ensure ps key).map fun p =>
        if p.send = some key then
          match p.hit pt b with
          | some h => p.apply set h
          | none => (p, [])
        else (p, [])
      Good page number (go.map Prod.fst) i n ∧ Grows ps (go.map Prod.fst) ∧
        (Silent page number (go.map Prod.snd).flatten ∨ Tail page number (go.map Prod.snd).flatten n) := by
    intro key hk
    obtain ⟨g1, g2, g3⟩ := good_ensure h key hk
    have hold : ∀ q ∈ ps, (if q.send = some key then
          match q.hit pt b with
          | some h => q.apply set h
          | none => (q, [])
        else (q, [])) = (q, ([] : List (List Nat))) := by
      intro q hq
      rw [hno q hq]
      simp
    have hmap : ps.map (fun p =>
        if p.send = some key then
          match p.hit pt b with
          | some h => p.apply set h
          | none => (p, [])
        else (p, [])) = ps.map (fun p => (p, ([] : List (List Nat)))) := List.map_congr_left hold
    have hfst : (ps.map (fun p => (p, ([] : List (List Nat))))).map Prod.fst = ps := by
      simp [Function.comp_def]
    have hsnd : ((ps.map (fun p => (p, ([] : List (List Nat))))).map Prod.snd).flatten = [] := by
      simp
    intro go
    rcases g3 with g3 | ⟨g3, g4⟩
    · have : go = ps.map (fun p => (p, [])) := by simp only [go, g3, hmap]
      rw [this, hfst, hsnd]
      exact ⟨h, .refl _, .inl (by simp [Silent])⟩
    · generalize hnew : ({ send := some key, receive := [key], value := .num 0 } : Param) = new at g3 g4
      obtain ⟨x, hx, hst, hout⟩ : ∃ x : Param × List (List Nat), (if new.send = some key then
          match new.hit pt b with
          | some h => new.apply set h
          | none => (new, [])
        else (new, [])) = x ∧ Static x.1 new ∧ (x.2 = x.1.bytes ∨ x.2 = []) := by
        refine ⟨_, rfl, ?_⟩
        split
        · split
          · obtain ⟨a1, a2, -, -⟩ := apply_spec new set (by assumption)
            exact ⟨a1, a2⟩
          · exact ⟨.refl _, .inr rfl⟩
        · exact ⟨.refl _, .inr rfl⟩
      have : go = ps.map (fun p => (p, [])) ++ [x] := by
        simp only [go, g3, List.map_append, hmap, List.map_cons, List.map_nil, hx]
      rw [this, List.map_append, List.map_append, hfst, List.flatten_append, hsnd]
      rw [g3] at g1 g2
      have hlast : (ps ++ [new])[ps.length]? = some new := by simp
      have hset : ps ++ List.map Prod.fst [x] = (ps ++ [new]).set ps.length x.1 := by simp
      have hne : ps.length ≠ i := by
        obtain ⟨p, h1, -⟩ := h.param
        have := (List.getElem?_eq_some_iff.1 h1).1
        omega
      rw [hset]
      obtain ⟨n', k1, k2, -⟩ := good_set g1 ps.length new x.1 hlast hst
      rw [k2 hne] at k1
      refine ⟨k1, g2.trans (grows_set _ _ _ _ hlast hst), .inl ?_⟩
      rcases hout with ho | ho
      · simp only [List.map_cons, List.map_nil, List.flatten_cons, List.flatten_nil, List.append_nil, List.nil_append, ho]
        exact other_quiet h.p7 (g4.static hst)
      · simp [ho, Silent]
  simp only [parseDefault] at hr
  split at hr
  · rename_i hreq
    simp only [Option.some.injEq] at hr
    subst hr
    obtain ⟨g1, g2, -⟩ := good_ensure h (.nrpn (slice b 8 10)) (by
      intro data hd
      simp only [Key.nrpn.injEq] at hd
      rw [← hd]
      exact nrpn_key b he _ _ hreq)
    exact ⟨g1, g2, sendOf_effect g1 _⟩
  · split at hr
    · rename_i hset
      simp only [Option.some.injEq] at hr
      rw [← hr]
      exact hcreated _ (by
        intro data hd
        simp only [Key.nrpn.injEq] at hd
        rw [← hd]
        exact nrpn_key b he _ _ hset)
    · split at hr
      · simp only [Option.some.injEq] at hr
        rw [← hr]
        exact hcreated _ (by simp)
      · split at hr
        · simp only [Option.some.injEq] at hr
          rw [← hr]
          exact hcreated _ (by simp)
        · simp at hr

/-- What a message does to the parameters. -/
theorem parseParams_effect {page number i n : Nat} {ps : List Param} (h : Good page number ps i n)
    (set : Option Nat) (b : List Nat) (he : Ended b) :
    ∃ n', Good page number (parseParams 2 set ps b).1 i n' ∧ Grows ps (parseParams 2 set ps b).1 ∧
      (set = some 2 → (n' = n ∧ Silent page number (parseParams 2 set ps b).2) ∨
        Tail page number (parseParams 2 set ps b).2 n') ∧
      (∀ v, Takes ps i b v → n' = v) := by
  have htakes : (∀ q ∈ ps, q.hit 2 b = none) → ∀ v, Takes ps i b v → n = v := by
    rintro hno v ⟨-, q, h1, h2⟩
    rw [hno q (List.mem_of_getElem? h1)] at h2
    simp at h2
  simp only [parseParams]
  rcases parseEntries_spec 2 set b ps with ⟨j, q, hit, h1, h2, h3, h4⟩ | ⟨h1, h2⟩
  · rw [h4]
    simp only
    obtain ⟨a1, a2, a3, a4⟩ := apply_spec q set hit
    obtain ⟨n', k1, k2, k3⟩ := good_set h j q _ h1 a1
    refine ⟨n', k1, grows_set _ _ _ _ h1 a1, ?_, ?_⟩
    · rintro rfl
      by_cases hji : j = i
      · subst hji
        obtain ⟨p, p1, -, -, p4, p5⟩ := h.param
        rw [h1] at p1
        simp only [Option.some.injEq] at p1
        subst p1
        rcases a3 (by simpa using p5) with ho | ⟨ho, hv⟩
        · right
          rw [ho, k1.bytes (by simp [(List.getElem?_eq_some_iff.1 h1).1])]
          exact tail_single _ _ _
        · left
          rw [ho]
          have := k3 rfl
          rw [hv, p4] at this
          simp only [PVal.num.injEq] at this
          exact ⟨this.symm, by simp [Silent]⟩
      · left
        refine ⟨k2 hji, ?_⟩
        rcases a2 with ho | ho
        · rw [ho]; exact other_quiet h.p7 ((h.others j q hji h1).static a1)
        · rw [ho]; simp [Silent]
    · rintro v ⟨t1, q', t2, t3⟩
      by_cases hji : j = i
      · subst hji
        rw [h1] at t2
        simp only [Option.some.injEq] at t2
        subst t2
        rw [h3] at t3
        simp only [Option.some.injEq] at t3
        obtain ⟨p, p1, -, -, p4, p5⟩ := h.param
        rw [h1] at p1
        simp only [Option.some.injEq] at p1
        subst p1
        have := a4 v (by rw [p4]; rfl) t3
        rw [k3 rfl] at this
        simpa using this
      · rcases Nat.lt_or_gt_of_ne hji with hlt | hlt
        · rw [t1 j hlt q h1] at h3; simp at h3
        · rw [h2 i q' hlt t2] at t3; simp at t3
  · rw [h1]
    simp only
    cases hd : parseDefault 2 set (.num 0) ps b with
    | some r =>
      obtain ⟨g1, g2, g3⟩ := default_effect h 2 set _ b he h2 r hd
      exact ⟨n, g1, g2, fun _ => g3.imp (fun x => ⟨rfl, x⟩) id, htakes h2⟩
    | none =>
      simp only
      cases hd' : parseDefault 2 set (.str []) ps b with
      | some r =>
        obtain ⟨g1, g2, g3⟩ := default_effect h 2 set _ b he h2 r hd'
        exact ⟨n, g1, g2, fun _ => g3.imp (fun x => ⟨rfl, x⟩) id, htakes h2⟩
      | none => exact ⟨n, h, .refl _, fun _ => .inl ⟨rfl, by simp [Silent]⟩, htakes h2⟩

/-- A beacon does not set a number. -/
theorem beacon_not_takes {page number i n : Nat} {ps : List Param} (h : Good page number ps i n) (b : List Nat)
    (hb : b.take 9 = [240, 0, 32, 51, 2, 127, 126, 0, 64]) (v : Nat) : ¬Takes ps i b v := by
  rintro ⟨-, q, h1, h2⟩
  obtain ⟨p, p1, -, -, p4, -⟩ := h.param
  rw [h1] at p1
  simp only [Option.some.injEq] at p1
  subst p1
  simp only [Param.hit] at h2
  obtain ⟨k, -, hk⟩ := List.exists_of_findSome?_eq_some h2
  match b, hb with
  | b0 :: b1 :: b2 :: b3 :: b4 :: b5 :: b6 :: b7 :: b8 :: rest, hb =>
    simp at hb
    obtain ⟨rfl, rfl, rfl, rfl, rfl, rfl, rfl, rfl, rfl⟩ := hb
    cases k with
    | nrpn data => simp [hitKey, p4, requestCode, setCode, Nat.add_comm 8] at hk
    | cc c scale => simp [hitKey] at hk
    | pc => simp [hitKey] at hk

/-- What a message does to the device. -/
theorem receive_effect {page number i n : Nat} {ps : List Param} (h : Good page number ps i n) (d : Virtual.State)
    (hd : d.productType = 2) (now : Int) (b : List Nat) (he : Ended b) :
    (Virtual.receive d ps now b).1.productType = 2 ∧
    ∃ n', Good page number (Virtual.receive d ps now b).2.1 i n' ∧ Grows ps (Virtual.receive d ps now b).2.1 ∧
      (d.parameterSet = some 2 → (Virtual.receive d ps now b).1.parameterSet = some 2 →
        (n' = n ∧ Silent page number (Virtual.receive d ps now b).2.2) ∨
        Tail page number (Virtual.receive d ps now b).2.2 n') ∧
      (Init b → Tail page number (Virtual.receive d ps now b).2.2 n') ∧
      (∀ v, Takes ps i b v → n' = v) := by
  by_cases hb : b.take 9 = [240, 0, 32, 51, 2, 127, 126, 0, 64]
  · have hr : Virtual.receive d ps now b = (
        { d with parameterSet := some (b.getD 9 0), timeLease := some ⟨b.getD 11 0 * 2000, now⟩, connected := true }, ps,
        if b.getD 10 0 % 2 = 1 then setMessages ps (b.getD 9 0) else []) := by
      simp only [Virtual.receive, Virtual.parse, hd, hb]
      simp
    rw [hr]
    refine ⟨hd, n, h, .refl _, ?_, ?_, fun v hv => absurd hv (beacon_not_takes h b hb v)⟩
    · simp only [Option.some.injEq]
      intro _ hset
      rw [hset]
      split
      · exact .inr (setMessages_tail h)
      · exact .inl ⟨trivial, by simp [Silent]⟩
    · rintro ⟨flags, lease, rfl, hf⟩
      simp only [List.getD_cons_succ, List.getD_cons_zero, hf, if_true]
      exact setMessages_tail h
  · have hr : Virtual.receive d ps now b = (d, parseParams 2 d.parameterSet ps b) := by
      unfold Virtual.receive Virtual.parse
      rw [hd, if_pos hb]
      rfl
    rw [hr]
    obtain ⟨n', k1, k2, k3, k4⟩ := parseParams_effect h d.parameterSet b he
    refine ⟨hd, n', k1, k2, fun hs _ => k3 hs, ?_, k4⟩
    rintro ⟨flags, lease, rfl, -⟩
    exact absurd rfl hb

/-- A value is changed at the device. -/
theorem devSet_effect {page number i n : Nat} {ps : List Param} (h : Good page number ps i n) (set : Option Nat)
    (j : Nat) (p : Param) (hp : ps[j]? = some p) (v : PVal) (r : Param × List (List Nat))
    (hr : p.setValue set v = some r) :
    ∃ n', Good page number (ps.set j r.1) i n' ∧ Grows ps (ps.set j r.1) ∧
      (set = some 2 → (n' = n ∧ Silent page number r.2) ∨ Tail page number r.2 n') := by
  have hap : p.apply set (.set v) = r := by simp [Param.apply, hr]
  obtain ⟨a1, a2, a3, -⟩ := apply_spec p set (.set v)
  rw [hap] at a1 a2 a3
  obtain ⟨n', k1, k2, k3⟩ := good_set h j p r.1 hp a1
  refine ⟨n', k1, grows_set _ _ _ _ hp a1, ?_⟩
  rintro rfl
  by_cases hji : j = i
  · subst hji
    obtain ⟨q, p1, -, -, p4, p5⟩ := h.param
    rw [hp] at p1
    simp only [Option.some.injEq] at p1
    subst p1
    rcases a3 (by simpa using p5) with ho | ⟨ho, hv⟩
    · right
      rw [ho, k1.bytes (by simp [(List.getElem?_eq_some_iff.1 hp).1])]
      exact tail_single _ _ _
    · left
      rw [ho]
      have := k3 rfl
      rw [hv, p4] at this
      simp only [PVal.num.injEq] at this
      exact ⟨this.symm, by simp [Silent]⟩
  · left
    refine ⟨k2 hji, ?_⟩
    rcases a2 with ho | ho
    · rw [ho]; exact other_quiet h.p7 ((h.others j p hji hp).static a1)
    · rw [ho]; simp [Silent]

end PySwitch.Kemper.Synced
