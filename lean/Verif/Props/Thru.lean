import Verif.Spec.Thru
import Verif.Props.Foreign
import Verif.Props.Wire
import Verif.Props.Routing
/-
Property C94: passing messages through from one MIDI device to another.
-/
namespace PySwitch.Props
open PySwitch.Wire PySwitch.Wire.Spec PySwitch.Routing PySwitch.Routing.Spec PySwitch.Thru PySwitch.Thru.Spec

namespace C94

theorem written_eq (devices : Nat → Device) (t : Nat) (es : List Eff) :
    written devices t es = ((deliveries es).map (fun p => if p.1 = t then (devices t).write p.2 else [])).flatten := by
  induction es with
  | nil => rfl
  | cons e es ih => cases e <;> simp [written, deliveries, ih] <;> rfl

theorem write_known (d : Device) (m : Msg) (hm : Valid m) (hc : d.outChannel < 16) :
    d.write m = wire (onChannel d.outChannel m) := by
  match m, hm with
  | .cc control value (some ch), hm =>
    exact C04_bytes d.outChannel (.cc control value (some d.outChannel)) ⟨hm.1, hm.2.1, hc⟩ (.inr rfl)
  | .pc patch (some ch), hm =>
    exact C04_bytes d.outChannel (.pc patch (some d.outChannel)) ⟨hm.1, hc⟩ (.inr rfl)
  | .sysex [a] data, hm => exact C04_bytes d.outChannel (.sysex [a] data) hm (.inl rfl)
  | .sysex [0, a, b] data, hm => exact C04_bytes d.outChannel (.sysex [0, a, b] data) hm (.inl rfl)

theorem valid_known (m : Msg) (hm : Valid m) : Known m = true := by
  cases m <;> simp_all [Valid, Known]

theorem answers_known (channels : List Nat) (items : List Item) (hok : ∀ i ∈ items, i.Ok) :
    ∀ m ∈ answers channels items, Known m = !IsUnknown m := by
  induction items with
  | nil => simp [answers]
  | cons i items ih =>
    intro m hm
    rw [answers_cons, List.mem_append] at hm
    rcases hm with hm | hm
    · cases i with
      | foreign st data => simp [Item.answer] at hm; subst hm; rfl
      | known x =>
        have hv : Valid x := hok (.known x) (by simp)
        simp only [Item.answer] at hm
        split at hm
        · simp at hm
          subst hm
          cases m <;> simp_all [Valid, Known, IsUnknown]
        · cases hm
    · exact ih (fun i hi => hok i (by simp [hi])) m hm

theorem known_valid (channels : List Nat) (items : List Item) (hok : ∀ i ∈ items, i.Ok) :
    ∀ m ∈ knownMessages channels items, Valid m := by
  induction items with
  | nil => simp [knownMessages]
  | cons i items ih =>
    have ih := ih (fun i hi => hok i (by simp [hi]))
    cases i with
    | foreign st data => simpa [knownMessages] using ih
    | known x =>
      have hv : Valid x := hok (.known x) (by simp)
      intro m hm
      simp only [knownMessages] at hm
      split at hm
      · simp at hm
        rcases hm with rfl | hm
        · exact hv
        · exact ih m hm
      · exact ih m hm

theorem answers_length (channels : List Nat) (items : List Item) : (answers channels items).length ≤ items.length := by
  induction items with
  | nil => simp [answers]
  | cons i items ih =>
    rw [answers_cons, List.length_append, List.length_cons]
    have : (i.answer channels).length ≤ 1 := by
      cases i with
      | known m => simp only [Item.answer]; split <;> simp
      | foreign st data => simp [Item.answer]
    omega

/-- Going through the indices of a list of reads. -/
theorem range_reads (l : List Msg) (n : Nat) (hn : l.length ≤ n) (f : Msg → List Nat) :
    ((List.range n).map (fun i =>
      match ((((l.map some ++ List.replicate n none).take n)[i]?).join) with
      | some m => f m
      | none => [])).flatten = (l.map f).flatten := by
  have h1 : ∀ i, i < n → (((l.map some ++ List.replicate n none).take n)[i]?).join = l[i]? := by
    intro i hi
    rw [List.getElem?_take, if_pos hi, List.getElem?_append]
    split
    · rename_i h
      rw [List.getElem?_map]
      simp at h
      rw [List.getElem?_eq_getElem h]
      rfl
    · rename_i h
      simp at h
      rw [List.getElem?_replicate, List.getElem?_eq_none h]
      split <;> rfl
  have h2 : (List.range n).map (fun i =>
      match ((((l.map some ++ List.replicate n none).take n)[i]?).join) with
      | some m => f m
      | none => []) = (List.range n).map (fun i => match l[i]? with | some m => f m | none => []) := by
    apply List.map_congr_left
    intro i hi
    rw [h1 i (List.mem_range.1 hi)]
  rw [h2]
  clear h1 h2
  induction l generalizing n with
  | nil => simp
  | cons x l ih =>
    obtain ⟨n, rfl⟩ : ∃ k, n = k + 1 := ⟨n - 1, by simp at hn; omega⟩
    rw [List.range_succ_eq_map, List.map_cons, List.map_map, List.flatten_cons, List.map_cons, List.flatten_cons,
      ← ih n (by simp at hn; omega)]
    rfl

end C94

open C94

/-- C94. Let device t be the target of exactly one pass-through routing, from a device s not routed to the application.
If the bytes of any sequence of known and unknown messages have come in at s, the bytes written at t are exactly those of the
known messages on the channels s listens to, in order, each on the output channel of t. -/
theorem C94_thru (devices : Nat → Device) (items : Nat → List Item) (rs : List Routing) (n s t : Nat)
    (hok : ∀ i ∈ items s, i.Ok) (hout : (devices t).outChannel < 16)
    (hd : ∀ p ∈ passes rs, p.1 ∉ applSources rs) (ht : (passes rs).filter (fun p => p.2 == t) = [(s, t)])
    (hn : (items s).length ≤ n) :
    thru devices (fun d => itemBytes (items d)) rs n t =
      stream ((knownMessages (devices s).channels (items s)).map (onChannel (devices t).outChannel)) := by
  have hreads : reads devices (fun d => itemBytes (items d)) n s =
      ((answers (devices s).channels (items s)).map some ++ List.replicate n none).take n :=
    C91_stream (devices s).channels (devices s).bufSize (items s) hok n
  generalize hq : reads devices (fun d => itemBytes (items d)) n = q at hreads
  simp only [thru, hq]
  rw [written_eq, C08_run rs q n hd]
  -- one poll
  have hpoll : ∀ (ps : List (Nat × Nat)) (i : Nat), ps.filter (fun p => p.2 == t) = [(s, t)] →
      (((ps.filterMap (fun p => ((nthRead q p.1 i).filter Known).map (fun m => (p.2, m)))).map
        (fun p => if p.1 = t then (devices t).write p.2 else [])).flatten) =
      (match nthRead q s i with
        | some m => if Known m then (devices t).write m else []
        | none => []) := by
    intro ps i hps
    have hgen : ∀ ps : List (Nat × Nat),
        (((ps.filterMap (fun p => ((nthRead q p.1 i).filter Known).map (fun m => (p.2, m)))).map
          (fun p => if p.1 = t then (devices t).write p.2 else [])).flatten) =
        ((ps.filter (fun p => p.2 == t)).map (fun p => match nthRead q p.1 i with
          | some m => if Known m then (devices t).write m else []
          | none => [])).flatten := by
      intro ps
      induction ps with
      | nil => rfl
      | cons p ps ih =>
        rw [List.filterMap_cons, List.filter_cons]
        cases hr : nthRead q p.1 i with
        | none =>
          have e : Option.map (fun m => (p.2, m)) (Option.filter Known none) = none := rfl
          rw [e]
          dsimp only
          rw [ih]
          split <;> simp [hr]
        | some m =>
          by_cases hk : Known m = true
          · have e : Option.map (fun m => (p.2, m)) (Option.filter Known (some m)) = some (p.2, m) := by
              simp [Option.filter, hk]
            rw [e]
            dsimp only
            rw [List.map_cons, List.flatten_cons, ih]
            by_cases hpt : p.2 = t <;> simp [hpt, hr, hk]
          · have e : Option.map (fun m => (p.2, m)) (Option.filter Known (some m)) = none := by
              simp [Option.filter, hk]
            rw [e]
            dsimp only
            rw [ih]
            split <;> simp [hr, hk]
    rw [hgen, hps]
    simp
  rw [List.map_flatMap, List.flatMap_def]
  have hff : ∀ l : List (List (List Nat)), l.flatten.flatten = (l.map List.flatten).flatten := by
    intro l
    induction l with
    | nil => rfl
    | cons x l ih => simp [ih]
  rw [hff, List.map_map]
  have hmap : (List.range n).map (List.flatten ∘ fun i => ((passes rs).filterMap (fun p =>
        ((nthRead q p.1 i).filter Known).map (fun m => (p.2, m)))).map
        (fun p => if p.1 = t then (devices t).write p.2 else [])) =
      (List.range n).map (fun i => match nthRead q s i with
        | some m => if Known m then (devices t).write m else []
        | none => []) := by
    apply List.map_congr_left
    intro i _
    exact hpoll (passes rs) i ht
  rw [hmap]
  simp only [nthRead, hreads]
  rw [range_reads (answers (devices s).channels (items s)) n
    (Nat.le_trans (answers_length _ _) hn) (fun m => if Known m then (devices t).write m else [])]
  have hfilter : ∀ l : List Msg, (∀ m ∈ l, Known m = !IsUnknown m) →
      (l.map (fun m => if Known m then (devices t).write m else [])).flatten =
        ((l.filter (fun m => !IsUnknown m)).map (devices t).write).flatten := by
    intro l hl
    induction l with
    | nil => rfl
    | cons x l ih =>
      have hx := hl x (by simp)
      rw [List.map_cons, List.flatten_cons, ih (fun m hm => hl m (by simp [hm])), List.filter_cons, hx]
      split <;> simp_all
  rw [hfilter _ (answers_known _ _ hok), C91_known _ _ hok]
  simp only [stream, List.map_map]
  congr 1
  apply List.map_congr_left
  intro m hm
  exact write_known (devices t) m (known_valid _ _ hok m hm) hout

/-- C94. So messages which are already on the output channel of the target (and all SysEx messages) come out exactly as they
came in: if the input consists of such messages only, the output is the input, byte for byte. -/
theorem C94_transparent (devices : Nat → Device) (ms : Nat → List Msg) (rs : List Routing) (n s t : Nat)
    (hv : ∀ m ∈ ms s, Valid m) (hout : (devices t).outChannel < 16)
    (hch : ∀ m ∈ ms s, m.channel = none ∨ m.channel = some (devices t).outChannel)
    (hl : (devices t).outChannel ∈ (devices s).channels)
    (hd : ∀ p ∈ passes rs, p.1 ∉ applSources rs) (ht : (passes rs).filter (fun p => p.2 == t) = [(s, t)])
    (hn : (ms s).length ≤ n) :
    thru devices (fun d => stream (ms d)) rs n t = stream (ms s) := by
  have hb : ∀ l : List Msg, itemBytes (l.map .known) = stream l := by
    intro l
    simp [itemBytes, stream, Item.bytes, List.map_map, Function.comp_def]
  have h := C94_thru devices (fun d => (ms d).map .known) rs n s t
    (by intro i hi; obtain ⟨m, hm, rfl⟩ := List.mem_map.1 hi; exact hv m hm) hout hd ht (by simpa using hn)
  simp only [hb] at h
  rw [h]
  congr 1
  have : ∀ l : List Msg, (∀ m ∈ l, Valid m) → (∀ m ∈ l, m.channel = none ∨ m.channel = some (devices t).outChannel) →
      (knownMessages (devices s).channels (l.map .known)).map (onChannel (devices t).outChannel) = l := by
    intro l
    induction l with
    | nil => intros; rfl
    | cons m l ih =>
      intro h1 h2
      have hm1 := h1 m (by simp)
      have hm2 := h2 m (by simp)
      have ih := ih (fun m hm => h1 m (by simp [hm])) (fun m hm => h2 m (by simp [hm]))
      have hh : Heard (devices s).channels m = true := by
        match m, hm1 with
        | .cc control value (some c), _ => simp [Msg.channel] at hm2; simp [Heard, hm2, hl]
        | .pc patch (some c), _ => simp [Msg.channel] at hm2; simp [Heard, hm2, hl]
        | .sysex [a] data, _ => rfl
        | .sysex [0, a, b] data, _ => rfl
      have ho : onChannel (devices t).outChannel m = m := by
        match m, hm1 with
        | .cc control value (some c), _ => simp [Msg.channel] at hm2; simp [onChannel, hm2]
        | .pc patch (some c), _ => simp [Msg.channel] at hm2; simp [onChannel, hm2]
        | .sysex [a] data, _ => rfl
        | .sysex [0, a, b] data, _ => rfl
      rw [List.map_cons, knownMessages, if_pos hh, List.map_cons, ih, ho]
  exact this (ms s) hv hch

/-- C94. The channel itself is not passed on: messages on different channels come out alike. -/
theorem C94_channel (devices : Nat → Device) (rs : List Routing) (n s t : Nat) (control value c₁ c₂ : Nat)
    (h₁ : Valid (.cc control value (some c₁))) (h₂ : Valid (.cc control value (some c₂)))
    (hl₁ : c₁ ∈ (devices s).channels) (hl₂ : c₂ ∈ (devices s).channels) (hout : (devices t).outChannel < 16)
    (hd : ∀ p ∈ passes rs, p.1 ∉ applSources rs) (ht : (passes rs).filter (fun p => p.2 == t) = [(s, t)]) (hn : 1 ≤ n) :
    thru devices (fun _ => stream [.cc control value (some c₁)]) rs n t =
      thru devices (fun _ => stream [.cc control value (some c₂)]) rs n t := by
  have e : ∀ c, stream [.cc control value (some c)] = itemBytes [.known (.cc control value (some c))] := by
    intro c; simp [stream, itemBytes, Item.bytes]
  have hx : ∀ c, Valid (.cc control value (some c)) → c ∈ (devices s).channels →
      thru devices (fun _ => stream [.cc control value (some c)]) rs n t =
        stream [.cc control value (some (devices t).outChannel)] := by
    intro c hv hc
    simp only [e]
    rw [C94_thru devices (fun _ => [.known (.cc control value (some c))]) rs n s t (by simpa [Item.Ok] using hv) hout hd ht
      (by simpa using hn), ← e]
    have hh : Heard (devices s).channels (.cc control value (some c)) = true := by simpa [Heard] using hc
    simp [knownMessages, hh, onChannel]
  rw [hx c₁ h₁ hl₁, hx c₂ h₂ hl₂]

/-- C94. A device writes nothing for an unknown event, even if it is handed to it directly: of any sequence of messages the
bytes of the known ones are written, in order, on the output channel. -/
theorem C94_device (d : Device) (hout : d.outChannel < 16) (ms : List Msg)
    (hm : ∀ m ∈ ms, Valid m ∨ ∃ st, m = .unknown st) :
    (ms.map d.write).flatten = stream ((ms.filter Known).map (onChannel d.outChannel)) := by
  induction ms with
  | nil => rfl
  | cons m ms ih =>
    have ih := ih (fun m h => hm m (by simp [h]))
    rw [List.map_cons, List.flatten_cons, ih, List.filter_cons]
    rcases hm m (by simp) with hv | ⟨st, rfl⟩
    · rw [valid_known m hv, write_known d m hv hout]
      simp [stream]
    · simp [Known, Device.write]

/-- DIN (device 0) to USB (device 1), and the application on USB. -/
def thruRoutings : List Routing := [⟨some 0, some 1⟩, ⟨some 1, none⟩, ⟨none, some 1⟩]

example : (∀ p ∈ passes thruRoutings, p.1 ∉ applSources thruRoutings) ∧
    (passes thruRoutings).filter (fun p => p.2 == 1) = [(0, 1)] := by decide

/-- A note, a Control Change on channel 6 and a Program Change on channel 1; the output channel of device 1 is 3. -/
example : thru (fun d => if d = 1 then { outChannel := 2 } else {})
    (fun d => if d = 0 then [0x90, 60, 100, 0xB5, 7, 100, 0xC0, 3] else []) thruRoutings 5 1 = [0xB2, 7, 100, 0xC2, 3] := by
  decide +kernel

end PySwitch.Props
