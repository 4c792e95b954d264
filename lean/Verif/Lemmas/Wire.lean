import Verif.Spec.Wire
namespace PySwitch.Wire
open Spec

theorem and_80_small : ∀ b < 128, isStatus b = false := by decide
theorem and_80_big : ∀ b < 256, 128 ≤ b → isStatus b = true := by decide +kernel

theorem isStatus_lt {b : Nat} (h : b < 128) : isStatus b = false := and_80_small b h

theorem skipData_status (buf : List Nat) (i x : Nat) (h : buf[i]? = some x) (hs : isStatus x = true) :
    skipData buf i = i := by
  unfold skipData
  split
  · rfl
  · rename_i y hy
    rw [h] at hy
    cases hy
    simp [hs]

theorem skipData_end (buf : List Nat) (i : Nat) (h : buf[i]? = none) : skipData buf i = i := by
  unfold skipData
  split
  · rfl
  · rename_i y hy; simp [h] at hy

theorem searchEom_eq (pre body rest : List Nat) (hb : Data7 body) :
    searchEom (pre ++ (body ++ 247 :: rest)) 247 pre.length
      = (pre.length + body.length + 1, true, false) := by
  induction body generalizing pre with
  | nil =>
    unfold searchEom
    split
    · rename_i h; simp at h
    · rename_i x h
      simp at h; subst h
      have : isStatus 247 = true := by decide
      simp [this]
  | cons b bs ih =>
    unfold searchEom
    split
    · rename_i h; simp at h
    · rename_i x h
      simp at h; subst h
      have hx : isStatus b = false := isStatus_lt (hb b (by simp))
      simp only [hx, Bool.false_eq_true, if_false]
      have := ih (pre ++ [b]) (fun c hc => hb c (by simp [hc]))
      simp only [List.append_assoc, List.cons_append, List.nil_append, List.length_append,
        List.length_cons, List.length_nil] at this
      simp only [List.cons_append, List.length_cons] at *
      rw [this]
      congr 1
      omega

theorem status_cc : ∀ ch < 16, isStatus (176 + ch) = true ∧ (176 + ch) &&& 0x0F = ch
    ∧ (176 + ch) &&& 0xF0 = 0xB0 ∧ ¬ (0xF0 = (176 + ch) &&& 0xFF)
    ∧ 0xB0 ||| (ch &&& 0x0F) = 176 + ch := by decide
theorem status_pc : ∀ ch < 16, isStatus (192 + ch) = true ∧ (192 + ch) &&& 0x0F = ch
    ∧ (192 + ch) &&& 0xF0 = 0xC0 ∧ ¬ (0xF0 = (192 + ch) &&& 0xFF)
    ∧ 0xC0 ||| (ch &&& 0x0F) = 192 + ch := by decide
theorem status_sysex : isStatus 240 = true ∧ 240 &&& 0xFF = 0xF0 := by decide

theorem slice_mid (pre mid rest : List Nat) (n : Nat) (hn : n = pre.length + mid.length) :
    slice (pre ++ (mid ++ rest)) pre.length n = mid := by
  unfold slice
  subst hn
  simp [List.take_append]

theorem matchStatus_skip (buf : List Nat) (start e st : Nat) (c : MsgClass) (cs)
    (h : ¬ (c.status = st &&& c.mask)) :
    matchStatus buf start e st (c :: cs) = matchStatus buf start e st cs := by
  rw [matchStatus, if_neg h]

theorem matchStatus_fixed (buf : List Nat) (start e st : Nat) (c : MsgClass) (cs) (n : Nat)
    (h : c.status = st &&& c.mask) (hn : c.length = (n : Int)) (hl : start + n ≤ buf.length) :
    matchStatus buf start e st (c :: cs) = ⟨some c, true, true, false, start + n⟩ := by
  rw [matchStatus, if_pos h, if_neg (by rw [hn]; omega), if_neg (by rw [hn]; omega), hn]
  rfl

theorem matchStatus_short (buf : List Nat) (start e st : Nat) (c : MsgClass) (cs) (n : Nat)
    (h : c.status = st &&& c.mask) (hn : c.length = (n : Int)) (hl : buf.length < start + n) :
    matchStatus buf start e st (c :: cs) = ⟨some c, true, false, false, e⟩ := by
  rw [matchStatus, if_pos h, if_pos (by rw [hn]; omega)]

theorem matchStatus_sysex (buf : List Nat) (start e st : Nat) (cs)
    (h : MsgClass.sysex.status = st &&& MsgClass.sysex.mask) (hl : start ≤ buf.length) :
    matchStatus buf start e st (.sysex :: cs) =
      ⟨some .sysex, true, (searchEom buf 0xF7 (start + 1)).2.1, (searchEom buf 0xF7 (start + 1)).2.2,
        (searchEom buf 0xF7 (start + 1)).1⟩ := by
  rw [matchStatus, if_pos h, if_neg (by simp [MsgClass.length]; omega), if_pos (by simp [MsgClass.length])]

/-- The loop body once the status byte has been matched. -/
theorem loop_step (spec buf : List Nat) (fuel start e st : Nat) (hg : buf[start]? = some st)
    (hs : isStatus st = true) :
    fromMessageLoop spec buf (fuel + 1) start e =
      match (matchStatus buf start e st registered).cls with
      | none => (some (.unknown st), start + 1)
      | some c =>
        if (matchStatus buf start e st registered).complete then
          let msg := fromBytes c (slice buf start (matchStatus buf start e st registered).endPlusOne)
          let channelOk := match msg.channel with
            | none => true
            | some ch => channelFilter ch spec
          if channelOk then (some msg, (matchStatus buf start e st registered).endPlusOne)
          else fromMessageLoop spec buf fuel (matchStatus buf start e st registered).endPlusOne
            (matchStatus buf start e st registered).endPlusOne
        else (none, (matchStatus buf start e st registered).endPlusOne) := by
  rw [fromMessageLoop]
  simp only [skipData_status _ _ _ hg hs, hg]
  rfl

theorem wire_cons (m : Msg) (hm : Valid m) : ∃ st tl, wire m = st :: tl ∧ isStatus st = true := by
  match m, hm with
  | .cc control value (some ch), hm => exact ⟨_, _, rfl, (status_cc ch hm.2.2).1⟩
  | .pc patch (some ch), hm => exact ⟨_, _, rfl, (status_pc ch hm.2).1⟩
  | .sysex [a] data, hm => exact ⟨_, _, rfl, status_sysex.1⟩
  | .sysex [0, a, b] data, hm => exact ⟨_, _, rfl, status_sysex.1⟩

/-- What the status matching finds for a complete valid message. -/
theorem match_complete (pre rest : List Nat) (m : Msg) (hm : Valid m) (e : Nat) :
    ∃ c, ∃ st ∈ (wire m).head?, ∃ bt,
      matchStatus (pre ++ (wire m ++ rest)) pre.length e st registered
        = ⟨some c, true, true, bt, pre.length + (wire m).length⟩ ∧ fromBytes c (wire m) = m := by
  match m, hm with
  | .cc control value (some ch), hm =>
    obtain ⟨h1, h2, h3⟩ := hm
    obtain ⟨s1, s2, s3, s4, -⟩ := status_cc ch h3
    refine ⟨.cc, 176 + ch, by simp [wire], false, ?_, ?_⟩
    · rw [registered, matchStatus_skip _ _ _ _ .sysex _ s4]
      exact matchStatus_fixed _ _ _ _ _ _ 3 s3.symm rfl (by simp [wire])
    · simp only [wire, fromBytes, s2]
      rw [if_pos (by omega)]
  | .pc patch (some ch), hm =>
    obtain ⟨h1, h3⟩ := hm
    obtain ⟨s1, s2, s3, s4, -⟩ := status_pc ch h3
    refine ⟨.pc, 192 + ch, by simp [wire], false, ?_, ?_⟩
    · rw [registered, matchStatus_skip _ _ _ _ .sysex _ s4, matchStatus_skip]
      · exact matchStatus_fixed _ _ _ _ _ _ 2 s3.symm rfl (by simp [wire])
      · show ¬ (0xB0 = (192 + ch) &&& 0xF0)
        rw [s3]; decide
    · simp only [wire, fromBytes, s2]
      rw [if_pos (by omega)]
  | .sysex [a] data, hm =>
    obtain ⟨h0, h1, h2⟩ := hm
    exact sysexStep pre rest [a] data e
      (by intro b hb; simp at hb; omega) h2 (by
        unfold fromBytes
        simp [wire, slice]
        omega)
  | .sysex [0, a, b] data, hm =>
    obtain ⟨h0, h1, h2⟩ := hm
    exact sysexStep pre rest [0, a, b] data e
      (by intro c hc; simp at hc; omega) h2 (by
        unfold fromBytes
        simp [wire, slice])
where
  sysexStep (pre rest mf data : List Nat) (e : Nat) (hmf : Data7 mf) (hd : Data7 data)
      (hf : fromBytes .sysex (wire (.sysex mf data)) = .sysex mf data) :
      ∃ c, ∃ st ∈ (wire (.sysex mf data)).head?, ∃ bt,
        matchStatus (pre ++ (wire (.sysex mf data) ++ rest)) pre.length e st registered
        = ⟨some c, true, true, bt, pre.length + (wire (.sysex mf data)).length⟩
        ∧ fromBytes c (wire (.sysex mf data)) = .sysex mf data := by
    refine ⟨.sysex, 240, by simp [wire], false, ?_, hf⟩
    rw [registered, matchStatus_sysex _ _ _ _ _ (by decide) (by simp)]
    have hse := searchEom_eq (pre ++ [240]) (mf ++ data) rest (by
      intro b hb
      simp at hb
      rcases hb with hb | hb
      · exact hmf b hb
      · exact hd b hb)
    have heq : pre ++ [240] ++ ((mf ++ data) ++ 247 :: rest)
        = pre ++ (wire (.sysex mf data) ++ rest) := by simp [wire]
    rw [heq] at hse
    simp only [List.length_append, List.length_cons, List.length_nil, Nat.zero_add] at hse
    rw [hse]
    have hwl : (wire (.sysex mf data)).length = mf.length + data.length + 2 := by simp [wire]; omega
    rw [hwl]
    simp; omega

theorem channelOk_eq (spec : List Nat) (m : Msg) (hm : Valid m) :
    (match m.channel with
      | none => true
      | some ch => channelFilter ch spec) = Heard spec m := by
  match m, hm with
  | .cc control value (some ch), hm => rfl
  | .pc patch (some ch), hm => rfl
  | .sysex [a] data, hm => rfl
  | .sysex [0, a, b] data, hm => rfl

/-- One loop iteration on a complete valid message. -/
theorem loop_complete (spec pre rest : List Nat) (m : Msg) (hm : Valid m) (fuel e : Nat) :
    fromMessageLoop spec (pre ++ (wire m ++ rest)) (fuel + 1) pre.length e
      = if Heard spec m then (some m, pre.length + (wire m).length)
        else fromMessageLoop spec (pre ++ (wire m ++ rest)) fuel
          (pre.length + (wire m).length) (pre.length + (wire m).length) := by
  obtain ⟨st, tl, hw, hs⟩ := wire_cons m hm
  obtain ⟨c, st', hst', bt, hmt, hf⟩ := match_complete pre rest m hm e
  rw [hw] at hst'
  simp at hst'
  subst hst'
  have hg : (pre ++ (wire m ++ rest))[pre.length]? = some st := by rw [hw]; simp
  rw [loop_step spec _ fuel pre.length e st hg hs, hmt]
  simp only [if_true]
  rw [slice_mid pre (wire m) rest _ rfl, hf, channelOk_eq spec m hm]

/-- The loop on an incomplete channel message at the end of the buffer: wait for more. -/
theorem loop_partial (spec pre part tl : List Nat) (m : Msg) (hm : Valid m) (hc : IsChannelMsg m)
    (hw : wire m = part ++ tl) (htl : tl ≠ []) (fuel : Nat) :
    fromMessageLoop spec (pre ++ part) (fuel + 1) pre.length pre.length = (none, pre.length) := by
  cases part with
  | nil =>
    rw [fromMessageLoop]
    have hn : (pre ++ ([] : List Nat))[pre.length]? = none := by simp
    simp only [skipData_end _ _ hn, hn]
    simp
  | cons st part =>
    have hg : (pre ++ (st :: part))[pre.length]? = some st := by simp
    match m, hm, hc with
    | .cc control value (some ch), hm, _ =>
      obtain ⟨h1, h2, h3⟩ := hm
      obtain ⟨s1, s2, s3, s4, -⟩ := status_cc ch h3
      simp [wire] at hw
      obtain ⟨rfl, hw⟩ := hw
      rw [loop_step spec _ fuel pre.length _ _ hg s1]
      have hl : part.length < 2 := by
        have := congrArg List.length hw
        simp at this
        cases tl with
        | nil => exact absurd rfl htl
        | cons => simp at this; omega
      rw [registered, matchStatus_skip _ _ _ _ .sysex _ s4,
        matchStatus_short _ _ _ _ .cc _ 3 s3.symm rfl (by simp; omega)]
      simp
    | .pc patch (some ch), hm, _ =>
      obtain ⟨h1, h3⟩ := hm
      obtain ⟨s1, s2, s3, s4, -⟩ := status_pc ch h3
      simp [wire] at hw
      obtain ⟨rfl, hw⟩ := hw
      rw [loop_step spec _ fuel pre.length _ _ hg s1]
      have hl : part.length < 1 := by
        have := congrArg List.length hw
        simp at this
        cases tl with
        | nil => exact absurd rfl htl
        | cons => simp at this; omega
      rw [registered, matchStatus_skip _ _ _ _ .sysex _ s4, matchStatus_skip,
        matchStatus_short _ _ _ _ .pc _ 2 s3.symm rfl (by simp; omega)]
      · simp
      · show ¬ (0xB0 = (192 + ch) &&& 0xF0)
        rw [s3]; decide

/-- What may stand at the end of a buffer after complete messages: nothing, or the beginning of a channel
message. -/
def Tail (part : List Nat) : Prop :=
  part = [] ∨ ∃ m tl, Valid m ∧ IsChannelMsg m ∧ wire m = part ++ tl ∧ tl ≠ []

/-- The loop over a buffer of complete messages and a rest: it delivers the first heard message. -/
theorem loop_stream (spec : List Nat) (ms : List Msg) (hv : ∀ m ∈ ms, Valid m) (part : List Nat)
    (hp : Tail part) (pre : List Nat) (fuel : Nat) (hf : ms.length < fuel) :
    fromMessageLoop spec (pre ++ (stream ms ++ part)) fuel pre.length pre.length
      = match ms.find? (Heard spec) with
        | none => (none, pre.length + (stream ms).length)
        | some m => (some m, pre.length
            + (stream (ms.takeWhile (fun x => !Heard spec x))).length + (wire m).length) := by
  induction ms generalizing pre fuel with
  | nil =>
    obtain ⟨fuel, rfl⟩ : ∃ k, fuel = k + 1 := ⟨fuel - 1, by simp at hf; omega⟩
    simp only [stream, List.map_nil, List.flatten_nil, List.nil_append, List.find?_nil,
      List.length_nil, Nat.add_zero]
    rcases hp with rfl | ⟨m, tl, hm, hc, hw, htl⟩
    · rw [fromMessageLoop]
      have hn : (pre ++ ([] : List Nat))[pre.length]? = none := by simp
      simp only [skipData_end _ _ hn, hn]
      simp
    · exact loop_partial spec pre part tl m hm hc hw htl fuel
  | cons m ms ih =>
    obtain ⟨fuel, rfl⟩ : ∃ k, fuel = k + 1 := ⟨fuel - 1, by simp at hf; omega⟩
    have hst : stream (m :: ms) = wire m ++ stream ms := by simp [stream]
    have e1 : pre ++ (stream (m :: ms) ++ part) = pre ++ (wire m ++ (stream ms ++ part)) := by
      rw [hst]; simp
    rw [e1, loop_complete spec pre _ m (hv m (by simp)) fuel]
    by_cases hh : Heard spec m = true
    · simp [hh, stream]
    · have hh' : Heard spec m = false := by simpa using hh
      rw [if_neg hh]
      have e2 : pre ++ (wire m ++ (stream ms ++ part)) = (pre ++ wire m) ++ (stream ms ++ part) := by
        simp
      have e3 : pre.length + (wire m).length = (pre ++ wire m).length := by simp
      rw [e2, e3, ih (fun x hx => hv x (by simp [hx])) (pre ++ wire m) fuel (by simp at hf; omega)]
      simp only [List.find?_cons, hh', List.takeWhile_cons]
      simp only [Bool.not_false, if_true]
      cases ms.find? (Heard spec) with
      | none => simp [hst]; omega
      | some x => simp [stream]; omega

/-- `from_message_bytes` on complete messages and a rest. -/
theorem parse_stream (spec : List Nat) (ms : List Msg) (hv : ∀ m ∈ ms, Valid m) (part : List Nat)
    (hp : Tail part) :
    fromMessageBytes spec (stream ms ++ part)
      = match ms.find? (Heard spec) with
        | none => (none, (stream ms).length)
        | some m => (some m,
            (stream (ms.takeWhile (fun x => !Heard spec x))).length + (wire m).length) := by
  have hlen : ms.length ≤ (stream ms).length := by
    clear hp
    induction ms with
    | nil => simp
    | cons m ms ih =>
      obtain ⟨st, tl, hw, -⟩ := wire_cons m (hv m (by simp))
      have := ih (fun x hx => hv x (by simp [hx]))
      simp [stream, hw] at this ⊢
      omega
  have := loop_stream spec ms hv part hp [] ((stream ms ++ part).length + 1) (by simp; omega)
  simpa [fromMessageBytes] using this

theorem stream_append (a b : List Msg) : stream (a ++ b) = stream a ++ stream b := by simp [stream]

theorem stream_cons (m : Msg) (b : List Msg) : stream (m :: b) = wire m ++ stream b := by simp [stream]

theorem cutOk_append (a b : List Msg) (n : Nat) (h : CutOk (a ++ b) ((stream a).length + n)) :
    CutOk b n := by
  induction a with
  | nil => simpa [stream] using h
  | cons m a ih =>
    simp only [List.cons_append, CutOk] at h
    rw [stream_cons, List.length_append, if_neg (by omega)] at h
    apply ih
    have e : (wire m).length + (stream a).length + n - (wire m).length = (stream a).length + n := by
      omega
    rwa [e] at h

theorem cutOk_channel (ms : List Msg) (h : ∀ m ∈ ms, IsChannelMsg m) (n : Nat) : CutOk ms n := by
  induction ms generalizing n with
  | nil => trivial
  | cons m ms ih =>
    simp only [CutOk]
    split
    · exact .inr (h m (by simp))
    · exact ih (fun x hx => h x (by simp [hx])) _

/-- A buffer which is a beginning of the stream and does not end inside a SysEx message. -/
theorem split_stream (ms : List Msg) (hv : ∀ m ∈ ms, Valid m) (buf pend : List Nat)
    (h : buf ++ pend = stream ms) (hc : CutOk ms buf.length) :
    ∃ mid rest part, ms = mid ++ rest ∧ buf = stream mid ++ part ∧ Tail part ∧
      part ++ pend = stream rest ∧ (pend = [] → rest = []) := by
  induction ms generalizing buf with
  | nil =>
    simp [stream] at h
    obtain ⟨rfl, rfl⟩ := h
    exact ⟨[], [], [], rfl, by simp [stream], .inl rfl, by simp [stream], fun _ => rfl⟩
  | cons m ms ih =>
    rw [stream_cons] at h
    simp only [CutOk] at hc
    split at hc
    · rename_i hlt
      obtain ⟨tl, ht⟩ : ∃ tl, wire m = buf ++ tl := by
        refine ⟨(wire m).drop buf.length, ?_⟩
        have := congrArg (List.take buf.length) h
        rw [List.take_append_of_le_length (Nat.le_refl _), List.take_length,
          List.take_append_of_le_length (by omega)] at this
        conv => lhs; rw [← List.take_append_drop buf.length (wire m), ← this]
      have htl : tl ≠ [] := by
        rintro rfl
        simp at ht
        rw [ht] at hlt
        omega
      refine ⟨[], m :: ms, buf, rfl, by simp [stream], ?_, by rw [h, stream_cons], ?_⟩
      · rcases hc with hc | hc
        · exact .inl (List.length_eq_zero_iff.1 hc)
        · exact .inr ⟨m, tl, hv m (by simp), hc, ht, htl⟩
      · rintro rfl
        have := congrArg List.length h
        simp at this
        omega
    · rename_i hge
      obtain ⟨tl, ht⟩ : ∃ tl, buf = wire m ++ tl := by
        refine ⟨buf.drop (wire m).length, ?_⟩
        have := congrArg (List.take (wire m).length) h
        rw [List.take_append_of_le_length (by omega),
          List.take_append_of_le_length (Nat.le_refl _), List.take_length] at this
        conv => lhs; rw [← List.take_append_drop (wire m).length buf, this]
      subst ht
      rw [List.append_assoc] at h
      have h2 := List.append_cancel_left h
      obtain ⟨mid, rest, part, h3, h4, h5, h6, h7⟩ := ih (fun x hx => hv x (by simp [hx])) tl h2 (by
        simpa using hc)
      exact ⟨m :: mid, rest, part, by simp [h3], by simp [h4, stream_cons], h5, h6, h7⟩

theorem tail_length (part : List Nat) (h : Tail part) : part.length ≤ 2 := by
  rcases h with rfl | ⟨m, tl, hm, hc, hw, htl⟩
  · simp
  · have hl : part.length + tl.length = (wire m).length := by rw [hw]; simp
    have : 0 < tl.length := List.length_pos_iff.2 htl
    match m, hm, hc with
    | .cc control value (some ch), hm, _ => simp [wire] at hl; omega
    | .pc patch (some ch), hm, _ => simp [wire] at hl; omega

theorem filter_takeWhile_not (p : Msg → Bool) (l : List Msg) :
    (l.takeWhile (fun x => !p x)).filter p = [] := by
  induction l with
  | nil => rfl
  | cons a l ih =>
    simp only [List.takeWhile_cons]
    split
    · rename_i h
      simp at h
      rw [List.filter_cons_of_neg (by simp [h])]
      exact ih
    · rfl

theorem find_split (p : Msg → Bool) (l : List Msg) (m : Msg) (h : l.find? p = some m) :
    ∃ b, l = l.takeWhile (fun x => !p x) ++ m :: b ∧ p m = true := by
  induction l with
  | nil => simp at h
  | cons a l ih =>
    by_cases ha : p a = true
    · simp [ha] at h
      subst h
      exact ⟨l, by simp [ha], ha⟩
    · have ha' : p a = false := by simpa using ha
      simp [ha'] at h
      obtain ⟨b, hb, hp⟩ := ih h
      refine ⟨b, ?_, hp⟩
      rw [List.takeWhile_cons]
      simp only [ha', Bool.not_false, if_true, List.cons_append]
      rw [← hb]

/-- What one `receive` does with a buffer that is a beginning of the stream. -/
theorem receive_stream (spec : List Nat) (bufSize : Nat) (inBuf bytesIn pend : List Nat)
    (hr : inBuf.length < bufSize ∨ bytesIn = [])
    (ms : List Msg) (hv : ∀ m ∈ ms, Valid m)
    (h : inBuf ++ bytesIn ++ pend = stream ms) (hc : CutOk ms (inBuf ++ bytesIn).length) :
    ∃ d rest, ms = d ++ rest ∧ (receive spec bufSize inBuf bytesIn).1.toList = d.filter (Heard spec) ∧
      (receive spec bufSize inBuf bytesIn).2 ++ pend = stream rest ∧
      ((receive spec bufSize inBuf bytesIn).1 ≠ none → rest.length < ms.length) ∧
      ((receive spec bufSize inBuf bytesIn).1 = none → (pend = [] → rest = []) ∧
        (2 < (inBuf ++ bytesIn).length → rest.length < ms.length)) := by
  have hb : (if inBuf.length < bufSize then inBuf ++ bytesIn else inBuf) = inBuf ++ bytesIn := by
    split
    · rfl
    · rcases hr with hr | hr
      · contradiction
      · simp [hr]
  obtain ⟨mid, rest, part, h1, h2, h3, h4, h5⟩ := split_stream ms hv _ pend h hc
  have hp := parse_stream spec mid (fun m hm => hv m (by rw [h1]; simp [hm])) part h3
  have hdrop : ∀ (k : Nat) (b : List Nat) (x : Option Msg),
      (if k ≠ 0 then (x, b.drop k) else (x, b)) = (x, b.drop k) := by
    intro k b x
    split
    · rfl
    · rename_i h
      simp at h
      simp [h]
  have key : receive spec bufSize inBuf bytesIn
      = ((fromMessageBytes spec (inBuf ++ bytesIn)).1,
          (inBuf ++ bytesIn).drop (fromMessageBytes spec (inBuf ++ bytesIn)).2) := by
    unfold receive
    simp only [hb]
    exact hdrop _ _ _
  rw [key, h2, hp]
  cases hfind : mid.find? (Heard spec) with
  | none =>
    refine ⟨mid, rest, h1, ?_, ?_, by simp, fun _ => ⟨h5, ?_⟩⟩
    · simp only [Option.toList]
      symm
      rw [List.filter_eq_nil_iff]
      simpa using hfind
    · simpa using h4
    · intro hlen
      have ht := tail_length part h3
      have hmid : mid ≠ [] := by
        rintro rfl
        simp [stream] at hlen
        omega
      rw [h1]
      have : 0 < mid.length := List.length_pos_iff.2 hmid
      simp; omega
  | some m =>
    obtain ⟨b, hb2, hm⟩ := find_split _ _ _ hfind
    generalize hw : List.takeWhile (fun x => !Heard spec x) mid = w at hb2 ⊢
    refine ⟨w ++ [m], b ++ rest, by rw [h1, hb2]; simp, ?_, ?_, ?_, by simp⟩
    · have : w.filter (Heard spec) = [] := by rw [← hw]; exact filter_takeWhile_not _ _
      simp [List.filter_append, this, hm]
    · have e : stream mid ++ part = (stream w ++ wire m) ++ (stream b ++ part) := by
        rw [hb2, stream_append, stream_cons]; simp
      rw [e]
      have e2 : (stream w).length + (wire m).length = (stream w ++ wire m).length := by simp
      simp only
      rw [e2, List.drop_left, stream_append, ← h4]
      simp
    · intro _
      rw [h1, hb2]
      simp; omega

/-- Number of bytes of the stream which have been read when `pending` is still to be read. -/
theorem poll_stream (spec : List Nat) (bufSize : Nat) (p : Port) (k : Nat)
    (ms : List Msg) (hv : ∀ m ∈ ms, Valid m) (h : p.inBuf ++ p.pending = stream ms)
    (hc : CutOk ms ((stream ms).length - (p.poll spec bufSize k).2.pending.length)) :
    ∃ d rest, ms = d ++ rest ∧ (p.poll spec bufSize k).1.toList = d.filter (Heard spec) ∧
      (p.poll spec bufSize k).2.inBuf ++ (p.poll spec bufSize k).2.pending = stream rest ∧
      (3 ≤ bufSize → 1 ≤ k → 0 < ms.length →
        (p.poll spec bufSize k).2.pending.length + rest.length < p.pending.length + ms.length) := by
  have hn : p.pending.take (min k (bufSize - p.inBuf.length))
      ++ p.pending.drop (min k (bufSize - p.inBuf.length)) = p.pending := List.take_append_drop _ _
  have hs : p.inBuf ++ p.pending.take (min k (bufSize - p.inBuf.length))
      ++ p.pending.drop (min k (bufSize - p.inBuf.length)) = stream ms := by
    rw [List.append_assoc, hn, h]
  have hcut : CutOk ms (p.inBuf ++ p.pending.take (min k (bufSize - p.inBuf.length))).length := by
    have e : (stream ms).length - (p.poll spec bufSize k).2.pending.length
        = (p.inBuf ++ p.pending.take (min k (bufSize - p.inBuf.length))).length := by
      rw [← hs]
      simp only [Port.poll, List.length_append]
      omega
    rwa [e] at hc
  have hroom : p.inBuf.length < bufSize
      ∨ p.pending.take (min k (bufSize - p.inBuf.length)) = [] := by
    by_cases hb : p.inBuf.length < bufSize
    · exact .inl hb
    · right
      have : min k (bufSize - p.inBuf.length) = 0 := by omega
      rw [this]; rfl
  obtain ⟨d, rest, h1, h2, h3, h4, h5⟩ := receive_stream spec bufSize p.inBuf
    (p.pending.take (min k (bufSize - p.inBuf.length)))
    (p.pending.drop (min k (bufSize - p.inBuf.length))) hroom ms hv hs hcut
  refine ⟨d, rest, h1, h2, h3, ?_⟩
  intro hB hk hms
  simp only [Port.poll]
  have hle : rest.length ≤ ms.length := by rw [h1]; simp
  simp only [List.length_drop]
  cases hres : (receive spec bufSize p.inBuf
    (p.pending.take (min k (bufSize - p.inBuf.length)))).1 with
  | some m =>
    have := h4 (by rw [hres]; simp)
    omega
  | none =>
    obtain ⟨h6, h7⟩ := h5 hres
    by_cases hp : p.pending = []
    · have : rest = [] := h6 (by simp [hp])
      subst this
      simp; omega
    · have hpl : 0 < p.pending.length := List.length_pos_iff.2 hp
      by_cases hb : p.inBuf.length < bufSize
      · have : 1 ≤ min k (bufSize - p.inBuf.length) := by omega
        omega
      · have := h7 (by simp; omega)
        omega

theorem polls_stream (spec : List Nat) (bufSize : Nat) (ks : List Nat) (p : Port)
    (ms : List Msg) (hv : ∀ m ∈ ms, Valid m) (h : p.inBuf ++ p.pending = stream ms)
    (hc : ∀ j, j ≤ ks.length →
      CutOk ms ((stream ms).length - (p.polls spec bufSize (ks.take j)).2.pending.length)) :
    ∃ d rest, ms = d ++ rest ∧ (p.polls spec bufSize ks).1 = d.filter (Heard spec) ∧
      (p.polls spec bufSize ks).2.inBuf ++ (p.polls spec bufSize ks).2.pending = stream rest ∧
      (3 ≤ bufSize → (∀ k ∈ ks, 1 ≤ k) → p.pending.length + ms.length ≤ ks.length → rest = []) := by
  induction ks generalizing p ms with
  | nil =>
    refine ⟨[], ms, rfl, rfl, h, ?_⟩
    intro _ _ hl
    simp at hl
    exact hl.2
  | cons k ks ih =>
    have hc1 := hc 1 (by simp)
    simp only [List.take_succ_cons, List.take_zero, Port.polls] at hc1
    obtain ⟨d, rest, h1, h2, h3, h4⟩ := poll_stream spec bufSize p k ms hv h hc1
    have hc' : ∀ j, j ≤ ks.length → CutOk rest ((stream rest).length
        - ((p.poll spec bufSize k).2.polls spec bufSize (ks.take j)).2.pending.length) := by
      intro j hj
      have := hc (j + 1) (by simp; omega)
      simp only [List.take_succ_cons, Port.polls] at this
      rw [h1] at this
      apply cutOk_append d rest
      have hle : ∀ (ks : List Nat) (q : Port),
          (q.polls spec bufSize ks).2.pending.length ≤ q.pending.length := by
        intro ks
        induction ks with
        | nil => intro q; simp [Port.polls]
        | cons x xs ih2 =>
          intro q
          simp only [Port.polls]
          refine Nat.le_trans (ih2 _) ?_
          simp [Port.poll]
      have hle2 := hle (ks.take j) (p.poll spec bufSize k).2
      have hle3 : (p.poll spec bufSize k).2.pending.length ≤ (stream rest).length := by
        rw [← h3]; simp
      rw [stream_append, List.length_append] at this
      have e : (stream d).length + ((stream rest).length
          - ((p.poll spec bufSize k).2.polls spec bufSize (ks.take j)).2.pending.length)
          = (stream d).length + (stream rest).length
          - ((p.poll spec bufSize k).2.polls spec bufSize (ks.take j)).2.pending.length := by
        omega
      rw [e]
      exact this
    obtain ⟨d', rest', g1, g2, g3, g4⟩ := ih (p.poll spec bufSize k).2 rest
      (fun m hm => hv m (by rw [h1]; simp [hm])) h3 hc'
    refine ⟨d ++ d', rest', by rw [h1, g1]; simp, ?_, ?_, ?_⟩
    · simp only [Port.polls]
      rw [h2, g2, List.filter_append]
    · simpa only [Port.polls] using g3
    · intro hB hk hl
      by_cases hms : 0 < ms.length
      · have := h4 hB (hk k (by simp)) hms
        apply g4 hB (fun x hx => hk x (by simp [hx]))
        simp at hl
        omega
      · have : ms = [] := by
          apply List.length_eq_zero_iff.1; omega
        rw [this] at h1
        have h1' := h1.symm
        simp at h1'
        rw [h1'.2] at g1
        have g1' := g1.symm
        simp at g1'
        exact g1'.2

end PySwitch.Wire
