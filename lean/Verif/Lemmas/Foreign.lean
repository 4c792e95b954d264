import Verif.Lemmas.Wire
import Verif.Spec.Foreign
/-
Lemmas about parsing byte streams with unknown messages.
-/
namespace PySwitch.Wire
open PySwitch.Wire.Spec

theorem foreign_status_all : ∀ st < 256, 128 ≤ st ∧ st ≠ 240 ∧ st / 16 ≠ 11 ∧ st / 16 ≠ 12 →
    isStatus st = true ∧ ¬ (0xF0 = st &&& 0xFF) ∧ ¬ (0xB0 = st &&& 0xF0) ∧ ¬ (0xC0 = st &&& 0xF0) := by
  decide +kernel

theorem foreign_status (st : Nat) (h2 : st < 256) (h1 : 128 ≤ st) (h3 : st ≠ 240) (h4 : st / 16 ≠ 11) (h5 : st / 16 ≠ 12) :
    isStatus st = true ∧ ¬ (0xF0 = st &&& 0xFF) ∧ ¬ (0xB0 = st &&& 0xF0) ∧ ¬ (0xC0 = st &&& 0xF0) :=
  foreign_status_all st h2 ⟨h1, h3, h4, h5⟩

/-- Data bytes are skipped. -/
theorem skipData_junk (pre junk rest : List Nat) (hj : Data7 junk) (hr : rest = [] ∨ ∃ x tl, rest = x :: tl ∧ isStatus x = true) :
    skipData (pre ++ (junk ++ rest)) pre.length = pre.length + junk.length := by
  induction junk generalizing pre with
  | nil =>
    rcases hr with rfl | ⟨x, tl, rfl, hx⟩
    · exact skipData_end _ _ (by simp)
    · exact skipData_status _ _ x (by simp) hx
  | cons b junk ih =>
    have hb : isStatus b = false := isStatus_lt (hj b (by simp))
    have hg : (pre ++ (b :: junk ++ rest))[pre.length]? = some b := by simp
    rw [skipData]
    split
    · rename_i h
      rw [hg] at h
      cases h
    · rename_i x h
      rw [hg] at h
      obtain rfl := Option.some.inj h
      rw [hb]
      have := ih (pre ++ [b]) (fun c hc => hj c (by simp [hc]))
      simp only [List.append_assoc, List.cons_append, List.nil_append, List.length_append, List.length_cons,
        List.length_nil] at this ⊢
      rw [if_neg (by simp), this]
      omega

/-- Starting the loop at data bytes is the same as starting after them. -/
theorem loop_junk (spec pre junk rest : List Nat) (hj : Data7 junk)
    (hr : rest = [] ∨ ∃ x tl, rest = x :: tl ∧ isStatus x = true) (fuel e : Nat) :
    fromMessageLoop spec (pre ++ (junk ++ rest)) (fuel + 1) pre.length e =
      fromMessageLoop spec (pre ++ (junk ++ rest)) (fuel + 1) (pre.length + junk.length) e := by
  have h1 := skipData_junk pre junk rest hj hr
  have h2 := skipData_junk (pre ++ junk) [] rest (by simp [Data7]) hr
  simp only [List.append_assoc, List.nil_append, List.length_append, List.length_nil, Nat.add_zero] at h2
  rw [fromMessageLoop, fromMessageLoop, h1, h2]

/-- An incomplete channel message at the end of the buffer: nothing is returned, and the position is left as it was. -/
theorem loop_partial' (spec pre part tl : List Nat) (m : Msg) (hm : Valid m) (hc : IsChannelMsg m)
    (hw : wire m = part ++ tl) (htl : tl ≠ []) (hpart : part ≠ []) (fuel e : Nat) :
    fromMessageLoop spec (pre ++ part) (fuel + 1) pre.length e = (none, e) ∧ part.length ≤ 2 := by
  cases part with
  | nil => exact absurd rfl hpart
  | cons st part =>
    have hg : (pre ++ (st :: part))[pre.length]? = some st := by simp
    match m, hm, hc with
    | .cc control value (some ch), hm, _ =>
      obtain ⟨h1, h2, h3⟩ := hm
      obtain ⟨s1, s2, s3, s4, -⟩ := status_cc ch h3
      simp [wire] at hw
      obtain ⟨rfl, hw⟩ := hw
      rw [loop_step spec _ fuel pre.length _ _ hg s1]
      have hl : part.length < 2 := by
        have := congrArg List.length hw
        simp at this
        cases tl with
        | nil => exact absurd rfl htl
        | cons => simp at this; omega
      rw [registered, matchStatus_skip _ _ _ _ .sysex _ s4,
        matchStatus_short _ _ _ _ .cc _ 3 s3.symm rfl (by simp; omega)]
      simp
      omega
    | .pc patch (some ch), hm, _ =>
      obtain ⟨h1, h3⟩ := hm
      obtain ⟨s1, s2, s3, s4, -⟩ := status_pc ch h3
      simp [wire] at hw
      obtain ⟨rfl, hw⟩ := hw
      rw [loop_step spec _ fuel pre.length _ _ hg s1]
      have hl : part.length < 1 := by
        have := congrArg List.length hw
        simp at this
        cases tl with
        | nil => exact absurd rfl htl
        | cons => simp at this; omega
      rw [registered, matchStatus_skip _ _ _ _ .sysex _ s4, matchStatus_skip,
        matchStatus_short _ _ _ _ .pc _ 2 s3.symm rfl (by simp; omega)]
      · simp
        omega
      · show ¬ (0xB0 = (192 + ch) &&& 0xF0)
        rw [s3]; decide

/-- An unknown status byte is reported and consumed. -/
theorem loop_foreign (spec pre rest : List Nat) (st fuel e : Nat) (h1 : 128 ≤ st) (h2 : st < 256) (h3 : st ≠ 240)
    (h4 : st / 16 ≠ 11) (h5 : st / 16 ≠ 12) :
    fromMessageLoop spec (pre ++ (st :: rest)) (fuel + 1) pre.length e = (some (.unknown st), pre.length + 1) := by
  obtain ⟨s1, s2, s3, s4⟩ := foreign_status st h2 h1 h3 h4 h5
  have hg : (pre ++ (st :: rest))[pre.length]? = some st := by simp
  rw [loop_step spec _ fuel pre.length _ _ hg s1]
  rw [registered, matchStatus_skip _ _ _ _ .sysex _ s2, matchStatus_skip _ _ _ _ .cc _ s3,
    matchStatus_skip _ _ _ _ .pc _ s4]
  rfl

theorem itemBytes_cons (i : Item) (is : List Item) : itemBytes (i :: is) = i.bytes ++ itemBytes is := by simp [itemBytes]

theorem answers_cons (c : List Nat) (i : Item) (is : List Item) : answers c (i :: is) = i.answer c ++ answers c is := by
  simp [answers]

theorem answers_append (c : List Nat) (a b : List Item) : answers c (a ++ b) = answers c a ++ answers c b := by
  simp [answers]

theorem item_cons (i : Item) (h : i.Ok) : ∃ st tl, i.bytes = st :: tl ∧ isStatus st = true := by
  cases i with
  | known m => exact wire_cons m h
  | foreign st data => exact ⟨st, data, rfl, (foreign_status st h.2.1 h.1 h.2.2.1 h.2.2.2.1 h.2.2.2.2.1).1⟩

/-- The parser on a beginning of a byte stream. `junk` is the rest of the data of a foreign message. -/
theorem parse_cut (spec : List Nat) (items : List Item) (hok : ∀ i ∈ items, i.Ok) (pre junk buf pend : List Nat)
    (hj : Data7 junk) (h : buf ++ pend = junk ++ itemBytes items) (hs : pend = [] ∨ ∀ i ∈ items, i.NoSysex)
    (fuel : Nat) (hf : buf.length < fuel) :
    ∃ d rest j2 n r, fromMessageLoop spec (pre ++ buf) fuel pre.length pre.length = (r, pre.length + n) ∧
      items = d ++ rest ∧ r.toList = answers spec d ∧ Data7 j2 ∧ n ≤ buf.length ∧
      buf.drop n ++ pend = j2 ++ itemBytes rest ∧
      (j2.length ≤ junk.length ∨ ∃ st data, Item.foreign st data ∈ items ∧ j2 = data) ∧
      (r ≠ none → rest.length < items.length) ∧
      (r = none → (pend = [] → rest = []) ∧ (junk.length + 2 < buf.length → rest.length < items.length)) := by
  induction items generalizing pre junk buf fuel with
  | nil =>
    obtain ⟨fuel, rfl⟩ : ∃ k, fuel = k + 1 := ⟨fuel - 1, by omega⟩
    simp only [itemBytes, List.map_nil, List.flatten_nil, List.append_nil] at h
    have hb : Data7 buf := fun b hb => hj b (by rw [← h]; simp [hb])
    refine ⟨[], [], pend, buf.length, none, ?_, rfl, rfl, fun b hb => hj b (by rw [← h]; simp [hb]), by omega,
      by simp [itemBytes], .inl (by rw [← h]; simp), by simp, fun _ => ⟨fun _ => rfl, ?_⟩⟩
    · have hn : (pre ++ buf)[pre.length + buf.length]? = none := by simp
      have hsk := skipData_junk pre buf [] hb (.inl rfl)
      rw [List.append_nil] at hsk
      rw [fromMessageLoop, hsk]
      simp only [hn]
      simp
    · intro hl
      have : buf.length ≤ junk.length := by rw [← h]; simp
      omega
  | cons i items ih =>
    obtain ⟨fuel, rfl⟩ : ∃ k, fuel = k + 1 := ⟨fuel - 1, by omega⟩
    have hiok := hok i (by simp)
    obtain ⟨st, tl, hst, hstat⟩ := item_cons i hiok
    by_cases hlen : buf.length ≤ junk.length
    · -- only data bytes in the buffer
      obtain ⟨j2, rfl⟩ : ∃ j2, junk = buf ++ j2 := ⟨junk.drop buf.length, by
        have := congrArg (List.take buf.length) h
        rw [List.take_left' rfl, List.take_append_of_le_length hlen] at this
        rw [this, List.length_take, Nat.min_eq_left hlen, List.take_append_drop]⟩
      have hb : Data7 buf := fun b hb => hj b (by simp [hb])
      refine ⟨[], i :: items, j2, buf.length, none, ?_, rfl, rfl, fun b hb => hj b (by simp [hb]), by omega, ?_,
        .inl (by simp), by simp, fun _ => ⟨?_, by simp only [List.length_append]; omega⟩⟩
      · have hn : (pre ++ buf)[pre.length + buf.length]? = none := by simp
        have hsk := skipData_junk pre buf [] hb (.inl rfl)
        rw [List.append_nil] at hsk
        rw [fromMessageLoop, hsk]
        simp only [hn]
        simp
      · rw [List.append_assoc] at h
        simpa using List.append_cancel_left h
      · intro hp
        subst hp
        have := congrArg List.length h
        rw [itemBytes_cons, hst] at this
        simp at this
    · -- the buffer reaches the first item
      obtain ⟨b', rfl⟩ : ∃ b', buf = junk ++ b' := ⟨buf.drop junk.length, by
        have := congrArg (List.take junk.length) h
        rw [List.take_left' rfl, List.take_append_of_le_length (by omega)] at this
        rw [← this, List.length_take, Nat.min_eq_left (by omega), List.take_append_drop]⟩
      rw [List.append_assoc] at h
      have h := List.append_cancel_left h
      have hb' : b' ≠ [] := by
        rintro rfl
        simp at hlen
      obtain ⟨x, b'', rfl⟩ : ∃ x b'', b' = x :: b'' := by
        cases b' with
        | nil => exact absurd rfl hb'
        | cons x b'' => exact ⟨x, b'', rfl⟩
      have hx : x = st := by
        rw [itemBytes_cons, hst] at h
        simp at h
        exact h.1
      subst hx
      rw [loop_junk spec pre junk _ hj (.inr ⟨x, b'', rfl, hstat⟩)]
      have eb : pre ++ (junk ++ (x :: b'')) = (pre ++ junk) ++ (x :: b'') := by simp
      have el : pre.length + junk.length = (pre ++ junk).length := by simp
      cases i with
      | foreign st data =>
        simp only [Item.bytes, List.cons.injEq] at hst
        obtain ⟨rfl, rfl⟩ := hst
        simp only [Item.Ok] at hiok
        obtain ⟨g1, g2, g3, g4, g5, g6⟩ := hiok
        rw [eb, el, loop_foreign spec _ _ _ fuel _ g1 g2 g3 g4 g5]
        refine ⟨[.foreign st data], items, data, junk.length + 1, some (.unknown st), ?_, rfl, ?_, g6, by simp, ?_,
          .inr ⟨st, data, by simp, rfl⟩, by simp, by simp⟩
        · simp; omega
        · simp [answers, Item.answer]
        · rw [itemBytes_cons] at h
          simp [Item.bytes] at h
          rw [List.drop_append, List.drop_of_length_le (by omega)]
          simpa using h
      | known m =>
        simp only [Item.bytes] at hst
        simp only [Item.Ok] at hiok
        by_cases hfull : (wire m).length ≤ (x :: b'').length
        · obtain ⟨r2, hr2⟩ : ∃ r2, x :: b'' = wire m ++ r2 := ⟨(x :: b'').drop (wire m).length, by
            have := congrArg (List.take (wire m).length) h
            rw [itemBytes_cons, Item.bytes, List.take_left' rfl, List.take_append_of_le_length hfull] at this
            rw [← this, List.length_take, Nat.min_eq_left hfull, List.take_append_drop]⟩
          rw [hr2] at h ⊢
          rw [itemBytes_cons, List.append_assoc] at h
          have h := List.append_cancel_left h
          rw [← List.append_assoc pre, el, loop_complete spec (pre ++ junk) r2 m hiok fuel]
          by_cases hh : Heard spec m = true
          · rw [if_pos hh]
            refine ⟨[.known m], items, [], junk.length + (wire m).length, some m, ?_, rfl, ?_, by simp [Data7], by simp,
              ?_, .inl (by simp), by simp, by simp⟩
            · simp; omega
            · simp [answers, Item.answer, hh]
            · rw [← List.append_assoc junk, ← List.length_append, List.drop_left' rfl]
              simpa using h
          · have hh' : Heard spec m = false := by simpa using hh
            rw [if_neg hh]
            obtain ⟨d, rest, j2, n, r, e1, e2, e3, e4, e5, e6, e7, e8, e9⟩ := ih (fun i hi => hok i (by simp [hi]))
              (pre ++ junk ++ wire m) [] r2 (by simp [Data7]) (by simpa using h)
              (hs.imp id (fun f i hi => f i (by simp [hi]))) fuel (by rw [hr2, hst] at hf; simp at hf; omega)
            have eb2 : pre ++ junk ++ (wire m ++ r2) = pre ++ junk ++ wire m ++ r2 := by simp
            have el2 : (pre ++ junk).length + (wire m).length = (pre ++ junk ++ wire m).length :=
              List.length_append.symm
            rw [eb2, el2, e1]
            refine ⟨.known m :: d, rest, j2, junk.length + (wire m).length + n, r, ?_, by rw [e2]; rfl, ?_, e4, ?_, ?_, ?_,
              ?_, ?_⟩
            · simp; omega
            · rw [answers_cons, ← e3]
              simp [Item.answer, hh']
            · simp; omega
            · rw [← e6, ← List.append_assoc junk, List.drop_append]
              rw [List.drop_of_length_le (by simp)]
              simp only [List.nil_append, List.length_append]
              rw [show junk.length + (wire m).length + n - (junk.length + (wire m).length) = n by omega]
            · rcases e7 with e7 | ⟨st, data, hmem, hd⟩
              · exact .inl (by simp at e7; simp [e7])
              · exact .inr ⟨st, data, by simp [hmem], hd⟩
            · intro hr
              have := e8 hr
              simp; omega
            · intro hr
              have := e9 hr
              refine ⟨this.1, fun _ => ?_⟩
              have hle : rest.length ≤ items.length := by rw [e2]; simp
              simp; omega
        · -- an incomplete message
          have hpend : pend ≠ [] := by
            rintro rfl
            have := congrArg List.length h
            rw [itemBytes_cons] at this
            simp [Item.bytes] at this hfull
            omega
          have hch : IsChannelMsg m := by
            rcases hs with hs | hs
            · exact absurd hs hpend
            · exact hs (.known m) (by simp)
          obtain ⟨tl', htl'⟩ : ∃ tl', wire m = (x :: b'') ++ tl' := ⟨(wire m).drop (x :: b'').length, by
            have := congrArg (List.take (x :: b'').length) h
            rw [itemBytes_cons, Item.bytes, List.take_left' rfl, List.take_append_of_le_length (by omega)] at this
            rw [this, List.length_take, Nat.min_eq_left (by omega), List.take_append_drop]⟩
          have htl'' : tl' ≠ [] := by
            rintro rfl
            rw [List.append_nil] at htl'
            rw [htl'] at hfull
            omega
          obtain ⟨p1, p2⟩ := loop_partial' spec (pre ++ junk) (x :: b'') tl' m hiok hch htl' htl'' (by simp) fuel pre.length
          rw [eb, el, p1]
          refine ⟨[], .known m :: items, junk, 0, none, rfl, rfl, rfl, hj, by omega, ?_, .inl (by omega), by simp, ?_⟩
          · rw [List.drop_zero, List.append_assoc, h]
          · intro _
            refine ⟨fun hp => absurd hp hpend, fun hl => ?_⟩
            simp at hl p2
            omega

theorem itemBytes_length (items : List Item) (hok : ∀ i ∈ items, i.Ok) : items.length ≤ (itemBytes items).length := by
  induction items with
  | nil => simp
  | cons i items ih =>
    obtain ⟨st, tl, hst, -⟩ := item_cons i (hok i (by simp))
    have := ih (fun i hi => hok i (by simp [hi]))
    rw [itemBytes_cons, hst]
    simp
    omega

/-- One `receive` on a beginning of a byte stream. -/
theorem receive_cut (spec : List Nat) (bufSize : Nat) (items : List Item) (hok : ∀ i ∈ items, i.Ok)
    (junk inBuf bytesIn pend : List Nat) (hroom : inBuf.length < bufSize ∨ bytesIn = [])
    (hj : Data7 junk) (h : inBuf ++ bytesIn ++ pend = junk ++ itemBytes items)
    (hs : pend = [] ∨ ∀ i ∈ items, i.NoSysex) :
    ∃ d rest j2, items = d ++ rest ∧ (receive spec bufSize inBuf bytesIn).1.toList = answers spec d ∧ Data7 j2 ∧
      (receive spec bufSize inBuf bytesIn).2 ++ pend = j2 ++ itemBytes rest ∧
      (j2.length ≤ junk.length ∨ ∃ st data, Item.foreign st data ∈ items ∧ j2 = data) ∧
      ((receive spec bufSize inBuf bytesIn).1 ≠ none → rest.length < items.length) ∧
      ((receive spec bufSize inBuf bytesIn).1 = none →
        (pend = [] → rest = []) ∧ (junk.length + 2 < (inBuf ++ bytesIn).length → rest.length < items.length)) := by
  have hb : (if inBuf.length < bufSize then inBuf ++ bytesIn else inBuf) = inBuf ++ bytesIn := by
    split
    · rfl
    · rcases hroom with hr | hr
      · omega
      · simp [hr]
  obtain ⟨d, rest, j2, n, r, e1, e2, e3, e4, e5, e6, e7, e8, e9⟩ := parse_cut spec items hok [] junk (inBuf ++ bytesIn) pend
    hj h hs ((inBuf ++ bytesIn).length + 1) (by omega)
  have hr : fromMessageBytes spec (inBuf ++ bytesIn) = (r, n) := by simpa [fromMessageBytes] using e1
  have hrec : receive spec bufSize inBuf bytesIn = (r, (inBuf ++ bytesIn).drop n) := by
    simp only [receive, hb, hr]
    split
    · rfl
    · rename_i h0
      have : n = 0 := by simpa using h0
      simp [this]
  rw [hrec]
  exact ⟨d, rest, j2, e2, e3, e4, e6, e7, e8, e9⟩

/-- One poll. Data of foreign messages of at most two bytes always leaves room to read on. -/
theorem poll_cut (spec : List Nat) (bufSize : Nat) (items : List Item) (hok : ∀ i ∈ items, i.Ok)
    (hs : ∀ i ∈ items, i.NoSysex) (hd : ∀ st data, Item.foreign st data ∈ items → data.length ≤ 2)
    (p : Port) (k : Nat) (junk : List Nat) (hj : Data7 junk) (hjl : junk.length ≤ 2)
    (h : p.inBuf ++ p.pending = junk ++ itemBytes items) :
    ∃ d rest j2, items = d ++ rest ∧ (p.poll spec bufSize k).1.toList = answers spec d ∧ Data7 j2 ∧ j2.length ≤ 2 ∧
      (p.poll spec bufSize k).2.inBuf ++ (p.poll spec bufSize k).2.pending = j2 ++ itemBytes rest ∧
      (5 ≤ bufSize → 1 ≤ k → 0 < items.length →
        (p.poll spec bufSize k).2.pending.length + rest.length < p.pending.length + items.length) := by
  have hn : p.pending.take (min k (bufSize - p.inBuf.length))
      ++ p.pending.drop (min k (bufSize - p.inBuf.length)) = p.pending := List.take_append_drop _ _
  have hroom : p.inBuf.length < bufSize ∨ p.pending.take (min k (bufSize - p.inBuf.length)) = [] := by
    by_cases hb : p.inBuf.length < bufSize
    · exact .inl hb
    · right
      have : min k (bufSize - p.inBuf.length) = 0 := by omega
      rw [this]; rfl
  obtain ⟨d, rest, j2, e1, e2, e3, e4, e5, e6, e7⟩ := receive_cut spec bufSize items hok junk p.inBuf
    (p.pending.take (min k (bufSize - p.inBuf.length))) (p.pending.drop (min k (bufSize - p.inBuf.length))) hroom hj
    (by rw [List.append_assoc, hn, h]) (.inr hs)
  refine ⟨d, rest, j2, e1, e2, e3, ?_, e4, ?_⟩
  · rcases e5 with e5 | ⟨st, data, hm, rfl⟩
    · omega
    · exact hd st _ hm
  · intro hB hk hpos
    simp only [Port.poll, List.length_drop]
    have hle : rest.length ≤ items.length := by rw [e1]; simp
    cases hres : (receive spec bufSize p.inBuf (p.pending.take (min k (bufSize - p.inBuf.length)))).1 with
    | some m =>
      have := e6 (by rw [hres]; simp)
      omega
    | none =>
      obtain ⟨h6, h7⟩ := e7 hres
      by_cases hp : p.pending = []
      · have : rest = [] := h6 (by simp [hp])
        subst this
        simp; omega
      · have hpl : 0 < p.pending.length := List.length_pos_iff.2 hp
        by_cases hb : p.inBuf.length < bufSize
        · have : 1 ≤ min k (bufSize - p.inBuf.length) := by omega
          omega
        · have := h7 (by simp; omega)
          omega

/-- Several polls. -/
theorem polls_cut (spec : List Nat) (bufSize : Nat) (ks : List Nat) (items : List Item) (hok : ∀ i ∈ items, i.Ok)
    (hs : ∀ i ∈ items, i.NoSysex) (hd : ∀ st data, Item.foreign st data ∈ items → data.length ≤ 2)
    (p : Port) (junk : List Nat) (hj : Data7 junk) (hjl : junk.length ≤ 2)
    (h : p.inBuf ++ p.pending = junk ++ itemBytes items) :
    ∃ d rest, items = d ++ rest ∧ (p.polls spec bufSize ks).1 = answers spec d ∧
      (5 ≤ bufSize → (∀ k ∈ ks, 1 ≤ k) → p.pending.length + items.length ≤ ks.length → rest = []) := by
  induction ks generalizing p items junk with
  | nil =>
    refine ⟨[], items, rfl, rfl, ?_⟩
    intro _ _ hl
    simp at hl
    exact hl.2
  | cons k ks ih =>
    obtain ⟨d, rest, j2, e1, e2, e3, e4, e5, e6⟩ := poll_cut spec bufSize items hok hs hd p k junk hj hjl h
    obtain ⟨d', rest', g1, g2, g3⟩ := ih rest (fun i hi => hok i (by rw [e1]; simp [hi]))
      (fun i hi => hs i (by rw [e1]; simp [hi])) (fun st data hi => hd st data (by rw [e1]; simp [hi]))
      (p.poll spec bufSize k).2 j2 e3 e4 e5
    refine ⟨d ++ d', rest', by rw [e1, g1]; simp, ?_, ?_⟩
    · simp only [Port.polls]
      rw [e2, g2, answers_append]
    · intro hB hk hl
      by_cases hpos : 0 < items.length
      · have := e6 hB (hk k (by simp)) hpos
        exact g3 hB (fun k' hk' => hk k' (by simp [hk'])) (by simp at hl; omega)
      · have : items = [] := List.eq_nil_of_length_eq_zero (by omega)
        rw [this] at e1
        have : rest = [] := (List.append_eq_nil_iff.1 e1.symm).2
        rw [this] at g1
        exact (List.append_eq_nil_iff.1 g1.symm).2

theorem known_answers (spec : List Nat) (items : List Item) (hok : ∀ i ∈ items, i.Ok) :
    (answers spec items).filter (fun m => !IsUnknown m) = knownMessages spec items := by
  induction items with
  | nil => rfl
  | cons i items ih =>
    have := ih (fun i hi => hok i (by simp [hi]))
    rw [answers_cons, List.filter_append, this]
    cases i with
    | foreign st data => simp [Item.answer, knownMessages, IsUnknown]
    | known m =>
      have hu : IsUnknown m = false := by
        have hv : Valid m := hok (.known m) (by simp)
        cases m <;> simp_all [IsUnknown, Valid]
      simp only [Item.answer, knownMessages]
      split <;> simp [hu]

end PySwitch.Wire
