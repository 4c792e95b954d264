import Verif.Spec.MessageNames
import Verif.Lemmas.PropertiesNames
/-!
C204: the MIDI monitor names messages.
-/
namespace PySwitch.Props
open PySwitch.MessageNames
open PySwitch.Properties (Text lit)
open PySwitch.Kemper.Virtual

namespace C204
open Spec

/-- The sixth byte, and the first one. -/
theorem take_get {m h : List Nat} {n : Nat} (e : m.take n = h) (i : Nat) (hi : i < n) : m[i]? = h[i]? := by
  rw [← e, List.getElem?_take]; simp [hi]

theorem nrpn_ge (data : List Nat) : 5 < 8 + data.length := by omega

theorem hit_shape (pt : Nat) (p : Param) (m : List Nat) (h : Hit) (hh : p.hit pt m = some h) :
    (m[0]? = some 240 ∧ m[5]? = some 127) ∨ m[0]? = some 176 ∨ m[0]? = some 192 := by
  unfold Param.hit at hh
  obtain ⟨k, -, hk⟩ := List.exists_of_findSome?_eq_some hh
  cases k with
  | nrpn data =>
    simp only [hitKey] at hk
    split at hk
    · rename_i e; left; exact ⟨by rw [take_get e 0 (by omega)]; rfl, by rw [take_get e 5 (by omega)]; rfl⟩
    · split at hk
      · rename_i e; left; exact ⟨by rw [take_get e 0 (by omega)]; rfl, by rw [take_get e 5 (by omega)]; rfl⟩
      · simp at hk
  | cc c s =>
    simp only [hitKey] at hk
    split at hk
    · rename_i e; right; left; rw [take_get e 0 (by omega)]; rfl
    · simp at hk
  | pc =>
    simp only [hitKey] at hk
    split at hk
    · rename_i e; right; right; rw [List.head?_eq_getElem?] at e; exact e
    · simp at hk

/-- A message which another parameter takes is not the message of a parameter which does not take it. -/
theorem send_none (pt : Nat) (p : Param) (name : Text) (m : List Nat) (hr : ∀ k, p.send = some k → k ∈ p.receive) (hn : p.hit pt m = none)
    (sh : (m[0]? = some 240 ∧ m[5]? = some 127) ∨ m[0]? = some 176 ∨ m[0]? = some 192) : sendProps name p m = none := by
  unfold sendProps
  split
  · rfl
  · split
    · rename_i e
      have h0 := take_get e 0 (by omega)
      have h5 := take_get e 5 (by omega)
      simp only [List.cons_append, List.nil_append, List.getElem?_cons_zero, List.getElem?_cons_succ] at h0 h5
      rcases sh with ⟨_, s⟩ | s | s
      · rw [h5] at s; simp at s
      · rw [h0] at s; simp at s
      · rw [h0] at s; simp at s
    · rfl
  · rename_i c s hs
    have := hr _ hs
    unfold Param.hit at hn
    rw [List.findSome?_eq_none_iff] at hn
    have := hn _ this
    simp only [hitKey] at this
    split at this
    · simp at this
    · rename_i e; rw [if_neg e]
  · rename_i hs
    have := hr _ hs
    unfold Param.hit at hn
    rw [List.findSome?_eq_none_iff] at hn
    have := hn _ this
    simp only [hitKey] at this
    split at this
    · simp at this
    · rename_i e
      rw [if_neg]
      intro h
      apply e
      cases m with
      | nil => simp at h
      | cons a as => simp at h; simp [h]

theorem parameterProps_append (pt : Nat) (m : List Nat) (before rest : List (Text × Param)) (hb : ∀ e ∈ before, e.2.hit pt m = none ∧ sendProps e.1 e.2 m = none) :
    parameterProps pt m (before ++ rest) = parameterProps pt m rest := by
  induction before with
  | nil => rfl
  | cons e es ih =>
    rw [List.cons_append, parameterProps, (hb e List.mem_cons_self).1, (hb e List.mem_cons_self).2]
    exact ih (fun x hx => hb x (List.mem_cons_of_mem _ hx))

/-- A message with the code of the protocol is taken by no parameter. -/
theorem no_param (pt : Nat) (m : List Nat) (params : List (Text × Param)) (h0 : m[0]? = some 240) (h5 : m[5]? = some 127) (h6 : m[6]? = some 126) :
    parameterProps pt m params = none := by
  induction params with
  | nil => rfl
  | cons e es ih =>
    have hh : e.2.hit pt m = none := by
      unfold Param.hit
      rw [List.findSome?_eq_none_iff]
      intro k _
      cases k with
      | nrpn data =>
        simp only [hitKey]
        rw [if_neg, if_neg]
        · intro x; have := take_get x 6 (by omega); rw [h6] at this; cases hv : e.2.value <;> simp [hv, setCode] at this
        · intro x; have := take_get x 6 (by omega); rw [h6] at this; cases hv : e.2.value <;> simp [hv, requestCode] at this
      | cc c s =>
        simp only [hitKey]; rw [if_neg]; intro x; have := take_get x 0 (by omega); rw [h0] at this; simp at this
      | pc =>
        simp only [hitKey]; rw [if_neg]; intro x; rw [List.head?_eq_getElem?, h0] at x; simp at x
    have hs : sendProps e.1 e.2 m = none := by
      unfold sendProps
      split
      · rfl
      · rw [if_neg]; intro x; have := take_get x 5 (by omega); rw [h5] at this; simp at this
      · rw [if_neg]; intro x; have := take_get x 0 (by omega); rw [h0] at this; simp at this
      · rw [if_neg]; intro x; have := take_get x 0 (by omega); rw [h0] at this; simp at this
    rw [parameterProps, hh, hs]
    exact ih

/-- A message of the device is taken by no parameter. -/
theorem sent_hit (pt : Nat) (p : Param) (m : List Nat) (h0 : m[0]? = some 240) (h5 : m[5]? = some 0) : p.hit pt m = none := by
  cases hh : p.hit pt m with
  | none => rfl
  | some h =>
    rcases hit_shape pt p m h hh with ⟨_, s⟩ | s | s
    · rw [h5] at s; simp at s
    · rw [h0] at s; simp at s
    · rw [h0] at s; simp at s

theorem take_prefix {x y r : List Nat} {c d : Nat} (e : ([240, 0, 32, 51, 0, 0, c, 0] ++ y ++ r).take (8 + x.length) = [240, 0, 32, 51, 0, 0, d, 0] ++ x) :
    x <+: y ∨ y <+: x := by
  have e : (y ++ r).take x.length = x := by
    have : 8 + x.length = x.length + 8 := by omega
    rw [this] at e
    simp only [List.cons_append, List.nil_append, List.take_succ_cons, List.cons.injEq, true_and] at e
    exact e.2
  have h1 : x <+: y ++ r := by rw [← e]; exact List.take_prefix _ _
  have h2 : y <+: y ++ r := List.prefix_append _ _
  exact List.prefix_or_prefix_of_prefix h1 h2

theorem cells (x : Char) (a b : Text) (r s : Text) (ha : x ∉ a) (hb : x ∉ b) (e : a ++ x :: r = b ++ x :: s) : a = b ∧ r = s := by
  induction a generalizing b with
  | nil =>
    cases b with
    | nil => simpa using e
    | cons c cs => simp at e; exact absurd (by simp [← e.1]) hb
  | cons c cs ih =>
    cases b with
    | nil => simp at e; exact absurd (by simp [e.1]) ha
    | cons d ds =>
      simp only [List.cons_append, List.cons.injEq] at e
      have := ih ds (fun h => ha (List.mem_cons_of_mem _ h)) (fun h => hb (List.mem_cons_of_mem _ h)) e.2
      exact ⟨by rw [e.1, this.1], this.2⟩

theorem join_inj (a b : List Text) (ha : ∀ t ∈ a, t ≠ [] ∧ ',' ∉ t) (hb : ∀ t ∈ b, t ≠ [] ∧ ',' ∉ t) (e : join a = join b) : a = b := by
  induction a generalizing b with
  | nil =>
    cases b with
    | nil => rfl
    | cons t ts =>
      cases ts with
      | nil => simp only [join] at e; exact absurd e.symm (hb t List.mem_cons_self).1
      | cons u us => simp [join] at e
  | cons t ts ih =>
    have ht := ha t List.mem_cons_self
    cases b with
    | nil =>
      cases ts with
      | nil => simp only [join] at e; exact absurd e ht.1
      | cons u us => simp [join] at e
    | cons v vs =>
      have hv := hb v List.mem_cons_self
      cases ts with
      | nil =>
        cases vs with
        | nil => simp only [join] at e; rw [e]
        | cons w ws => simp only [join] at e; exact absurd (by rw [e]; simp) ht.2
      | cons u us =>
        cases vs with
        | nil => simp only [join] at e; exact absurd (by rw [← e]; simp) hv.2
        | cons w ws =>
          simp only [join] at e
          obtain ⟨e1, e2⟩ := cells ',' _ _ _ _ ht.2 hv.2 e
          simp only [List.cons.injEq, true_and] at e2
          rw [e1, ih (w :: ws) (fun x hx => ha x (List.mem_cons_of_mem _ hx)) (fun x hx => hb x (List.mem_cons_of_mem _ hx)) e2]

/-- One cell. -/
def cell (hex pad : Bool) (b : Nat) : Text := if pad then padStart 3 ' ' (convert hex b) else convert hex b

/-- The number in a cell: of the digits, in the base. -/
def value (base : Nat) (t : Text) : Nat := t.foldl (fun n c => if c = ' ' then n else base * n + (if c.toNat ≥ 97 then c.toNat - 87 else c.toNat - 48)) 0

theorem cell_table : ∀ hex pad : Bool, ∀ b ∈ List.range 256, cell hex pad b ≠ [] ∧ ',' ∉ cell hex pad b ∧ value (if hex then 16 else 10) (cell hex pad b) = b := by decide +kernel

theorem cell_ok (hex pad : Bool) (b : Nat) (hb : b < 256) : cell hex pad b ≠ [] ∧ ',' ∉ cell hex pad b ∧ value (if hex then 16 else 10) (cell hex pad b) = b :=
  cell_table hex pad b (List.mem_range.2 hb)

theorem digits_inj (a b : Nat) (h : Nat.toDigits 10 a = Nat.toDigits 10 b) : a = b := by
  have := Properties.parseNat_digits a
  rw [h, Properties.parseNat_digits] at this
  exact (Option.some.inj this).symm

theorem digits_mem (n : Nat) : ∀ c ∈ Nat.toDigits 10 n, c.isDigit := fun c hc => Nat.isDigit_of_mem_toDigits (by omega) (by omega) hc

end C204
open C204

/-- C204: a message to the device which the device takes as a request of a parameter, or as a new value for it, is shown with the name of this parameter and with the value which the device gets. -/
theorem C204_received (productType : Nat) (params : List (Text × Param)) (dev : Spec.Device params) (message : List Nat) (name : Text) (h : Hit)
    (takes : Spec.Takes productType params message name h) :
    properties productType params message = some (match h with
      | .request => (lit "Kemper: request " ++ name, .empty)
      | .set (.num n) => (lit "Kemper: " ++ name, .num n)
      | .set (.str cs) => (lit "Kemper: " ++ name, .text cs)) := by
  obtain ⟨before, p, after, rfl, hb, hh⟩ := takes
  have sh := hit_shape _ _ _ _ hh
  have : parameterProps productType message (before ++ (name, p) :: after) = some (ofHit name h) := by
    rw [parameterProps_append _ _ _ _ (fun e he => ⟨hb e he, send_none productType e.2 e.1 message (dev e (List.mem_append_left _ he)) (hb e he) sh⟩), parameterProps, hh]
  unfold properties
  rw [this]
  have k : lit "Kemper: request " = lit "Kemper: " ++ lit "request " := by decide +kernel
  rw [k]
  cases h with
  | request => simp only [ofHit, List.append_assoc]
  | set v => cases v <;> rfl

/-- C204: a message by which the device tells the value of a parameter (as NRPN message) is shown with the name of this parameter, and with its value; a text is shown with the zero at its end. -/
theorem C204_sent (productType : Nat) (params : List (Text × Param)) (addr : Spec.Addresses params) (name : Text) (p : Param) (data : List Nat)
    (mem : (name, p) ∈ params) (key : p.send = some (.nrpn data)) (message : List Nat) (sent : message ∈ p.bytes) :
    properties productType params message = some (lit "Kemper: " ++ name, match p.value with | .num n => .num n | .str cs => .text (cs ++ [0])) := by
  have hm : message = [240, 0, 32, 51, 0, 0, setCode p.value, 0] ++ data ++ (encode p.value ++ [247]) := by
    unfold Param.bytes at sent
    rw [key] at sent
    simp only [List.mem_singleton] at sent
    rw [sent]; simp only [List.append_assoc]
  have h0 : message[0]? = some 240 := by rw [hm]; rfl
  have h5 : message[5]? = some 0 := by rw [hm]; rfl
  obtain ⟨before, after, rfl⟩ := List.append_of_mem mem
  have hb : ∀ e ∈ before, e.2.hit productType message = none ∧ sendProps e.1 e.2 message = none := by
    intro e he
    refine ⟨sent_hit _ _ _ h0 h5, ?_⟩
    have ha := (List.pairwise_append.1 addr).2.2 e he (name, p) List.mem_cons_self
    unfold sendProps
    split
    · rfl
    · rename_i x hx
      rw [if_neg]
      intro t
      rw [hm] at t
      have := ha x data hx key
      rcases take_prefix t with q | q
      · exact this.1 q
      · exact this.2 q
    · rw [if_neg]; intro x; have := take_get x 0 (by omega); rw [h0] at this; simp at this
    · rw [if_neg]; intro x; have := take_get x 0 (by omega); rw [h0] at this; simp at this
  have hs : sendProps name p message = some (name, ofVal (match p.value with | .num n => .num n | .str cs => .str (cs ++ [0]))) := by
    unfold sendProps
    rw [key]
    simp only
    have e8 : 8 + data.length = data.length + 8 := by omega
    rw [if_pos (by rw [hm, e8]; simp)]
    have : PySwitch.Wire.slice message (8 + data.length) (message.length - 1) = encode p.value := by
      unfold PySwitch.Wire.slice
      have hl : message.length - 1 = 8 + data.length + (encode p.value).length := by rw [hm]; simp; omega
      rw [hl, hm]
      have : [240, 0, 32, 51, 0, 0, setCode p.value, 0] ++ data ++ (encode p.value ++ [247]) = ([240, 0, 32, 51, 0, 0, setCode p.value, 0] ++ data ++ encode p.value) ++ [247] := by simp only [List.append_assoc]
      rw [this, List.take_left' (by simp; omega), List.drop_left' (by simp; omega)]
    rw [this]
    cases hv : p.value with
    | num n => simp only [encode, evaluate, List.getD_cons_zero, List.getD_cons_succ]; rw [Nat.div_add_mod']
    | str cs => rfl
  unfold properties
  rw [parameterProps_append _ _ _ _ hb, parameterProps, sent_hit _ _ _ h0 h5]
  simp only
  rw [hs]
  cases p.value <;> rfl

/-- C204: the messages of the bidirectional protocol are shown as such, whatever parameters there are. -/
theorem C204_protocol (productType : Nat) (params : List (Text × Param)) (rest : List Nat) :
    properties productType params ([240, 0, 32, 51, productType, 127, 126, 0, 64] ++ rest) = some (lit "Kemper: Protocol Init", .empty)
    ∧ properties productType params ([240, 0, 32, 51, productType, 127, 126, 0, 127] ++ rest) = some (lit "Kemper: Protocol KeepAlive", .empty) := by
  constructor
  · unfold properties
    rw [no_param _ _ _ rfl rfl rfl]
    have : protocolProps productType ([240, 0, 32, 51, productType, 127, 126, 0, 64] ++ rest) = some (lit "Protocol Init", .empty) := by
      unfold protocolProps; rw [if_neg (by simp), if_pos (by simp)]
    rw [this]
    simp only
    exact congrArg (fun t => some (t, Shown.empty)) (by decide +kernel)
  · unfold properties
    rw [no_param _ _ _ rfl rfl rfl]
    have : protocolProps productType ([240, 0, 32, 51, productType, 127, 126, 0, 127] ++ rest) = some (lit "Protocol KeepAlive", .empty) := by
      unfold protocolProps; rw [if_pos (by simp)]
    rw [this]
    simp only
    exact congrArg (fun t => some (t, Shown.empty)) (by decide +kernel)

/-- C204: a control change or program change which belongs to no parameter is shown with its channel (from 1), its controller and its value. -/
theorem C204_other (productType : Nat) (channel control value : Nat) (hc : channel < 16) (params : List (Text × Param)) :
    (parameterProps productType [176 + channel, control, value] params = none →
      properties productType params [176 + channel, control, value]
        = some (lit "Kemper: CC " ++ Nat.toDigits 10 control ++ lit " (Channel " ++ Nat.toDigits 10 (channel + 1) ++ lit ")", .num value))
    ∧ (parameterProps productType [192 + channel, value] params = none →
      properties productType params [192 + channel, value] = some (lit "Kemper: PC (Channel " ++ Nat.toDigits 10 (channel + 1) ++ lit ")", .num value)) := by
  have k1 : lit "Kemper: CC " = lit "Kemper: " ++ lit "CC " := by decide +kernel
  have k2 : lit "Kemper: PC (Channel " = lit "Kemper: " ++ lit "PC (Channel " := by decide +kernel
  constructor
  · intro h
    unfold properties
    rw [h]
    have hp : protocolProps productType [176 + channel, control, value] = none := by
      unfold protocolProps; rw [if_neg (by simp), if_neg (by simp)]
    have hd : determine [176 + channel, control, value] = some (lit "CC " ++ Nat.toDigits 10 control ++ lit " (Channel " ++ Nat.toDigits 10 (channel + 1) ++ lit ")", .num value) := by
      unfold determine
      have e : 176 + channel - 175 = channel + 1 := by omega
      rw [if_neg (by simp)]
      simp only [e]
      rw [if_pos (by omega), if_pos (by omega)]
      rfl
    rw [hp, hd, k1]
    simp only [Option.map_some, List.append_assoc]
  · intro h
    unfold properties
    rw [h]
    have hp : protocolProps productType [192 + channel, value] = none := by
      unfold protocolProps; rw [if_neg (by simp), if_neg (by simp)]
    have hd : determine [192 + channel, value] = some (lit "PC (Channel " ++ Nat.toDigits 10 (channel + 1) ++ lit ")", .num value) := by
      unfold determine
      have e : 192 + channel - 191 = channel + 1 := by omega
      rw [if_neg (by simp)]
      simp only [e]
      rw [if_pos (by omega), if_neg (by omega), if_pos (by omega)]
      rfl
    rw [hp, hd, k2]
    simp only [Option.map_some, List.append_assoc]

/-- C204, partial: two control changes which belong to no parameter have the same name only if channel and controller are the same, so ignoring the one does not hide other controllers. Missing: other kinds of messages, see the witness. -/
theorem C204_distinct_partial (productType : Nat) (params : List (Text × Param)) (ch1 ch2 c1 c2 v1 v2 : Nat) (h1 : ch1 < 16) (h2 : ch2 < 16)
    (u1 : parameterProps productType [176 + ch1, c1, v1] params = none) (u2 : parameterProps productType [176 + ch2, c2, v2] params = none)
    (same : (properties productType params [176 + ch1, c1, v1]).map Prod.fst = (properties productType params [176 + ch2, c2, v2]).map Prod.fst) : ch1 = ch2 ∧ c1 = c2 := by
  rw [(C204_other productType ch1 c1 v1 h1 params).1 u1, (C204_other productType ch2 c2 v2 h2 params).1 u2] at same
  have k : lit " (Channel " = ' ' :: lit "(Channel " := by decide +kernel
  have nd : ∀ n, ' ' ∉ Nat.toDigits 10 n := fun n h => absurd (digits_mem n _ h) (by decide)
  simp only [Option.map_some, Option.some.injEq, List.append_assoc] at same
  have e := List.append_cancel_left same
  rw [k, List.cons_append, List.cons_append] at e
  obtain ⟨e1, e2⟩ := cells ' ' _ _ _ _ (nd _) (nd _) e
  have e3 := List.append_cancel_right (List.append_cancel_left e2)
  have := digits_inj _ _ e3
  exact ⟨by omega, digits_inj _ _ e1⟩

/-- C204: the bytes of a message can be read from its row, decimal and hexadecimal: different messages are written differently. -/
theorem C204_bytes (hex pad : Bool) (a b : List Nat) (ha : ∀ x ∈ a, x < 256) (hb : ∀ x ∈ b, x < 256) (same : formatBytes hex pad a = formatBytes hex pad b) : a = b := by
  have e : a.map (cell hex pad) = b.map (cell hex pad) := by
    refine join_inj _ _ ?_ ?_ same
    · intro t ht
      obtain ⟨x, hx, rfl⟩ := List.mem_map.1 ht
      exact ⟨(cell_ok hex pad x (ha x hx)).1, (cell_ok hex pad x (ha x hx)).2.1⟩
    · intro t ht
      obtain ⟨x, hx, rfl⟩ := List.mem_map.1 ht
      exact ⟨(cell_ok hex pad x (hb x hx)).1, (cell_ok hex pad x (hb x hx)).2.1⟩
  have id : ∀ l : List Nat, (∀ x ∈ l, x < 256) → (l.map (cell hex pad)).map (value (if hex then 16 else 10)) = l := by
    intro l hl
    rw [List.map_map]
    conv => rhs; rw [← List.map_id l]
    exact List.map_congr_left fun x hx => (cell_ok hex pad x (hl x hx)).2.2
  rw [← id a ha, ← id b hb, e]

/-- C204: of every message, the row shows each byte by its number in the base, with at least two places in hexadecimal. -/
theorem C204_byte (b : Nat) : formatBytes false false [b] = Nat.toDigits 10 b
    ∧ (b < 256 → formatBytes true false [b] = [Nat.digitChar (b / 16), Nat.digitChar (b % 16)])
    ∧ (∀ hex pad x y l, formatBytes hex pad (x :: y :: l) = formatBytes hex pad [x] ++ lit ", " ++ formatBytes hex pad (y :: l)) := by
  refine ⟨rfl, ?_, ?_⟩
  · intro hb
    have t : ∀ x ∈ List.range 256, formatBytes true false [x] = [Nat.digitChar (x / 16), Nat.digitChar (x % 16)] := by decide +kernel
    exact t b (List.mem_range.2 hb)
  · intro hex pad x y l
    have : lit ", " = [',', ' '] := by decide +kernel
    rw [this]
    simp only [formatBytes, List.map_cons, join, List.map_nil, List.append_assoc, List.cons_append, List.nil_append]

/-- C204: a SysEx message of another manufacturer is shown as such, with all its bytes; and a message without a name is shown with all its
bytes, so that different ones look different. -/
theorem C204_unknown (productType : Nat) (params : List (Text × Param)) :
    (∀ rest, rest.take 3 ≠ [0, 32, 51] → parameterProps productType (240 :: rest) params = none →
      properties productType params (240 :: rest) = some (lit "Kemper: SysEx", .bytes (240 :: rest)))
    ∧ (∀ hex a b, (∀ x ∈ a, x < 256) → (∀ x ∈ b, x < 256) → properties productType params a = none → properties productType params b = none →
      formatValue hex (properties productType params a) a = formatValue hex (properties productType params b) b → a = b) := by
  constructor
  · intro rest hr h
    unfold properties
    rw [h]
    have h4 : (240 :: rest).take 4 ≠ [240, 0, 32, 51] := by
      simpa [List.take_succ_cons] using hr
    have hp : protocolProps productType (240 :: rest) = none := by
      unfold protocolProps
      rw [if_neg, if_neg]
      all_goals
        intro e
        apply h4
        have := congrArg (List.take 4) e
        simpa [List.take_take] using this
    have hd : determine (240 :: rest) = some (lit "SysEx", .bytes (240 :: rest)) := by
      unfold determine
      rw [if_neg h4]
      simp
    rw [hp, hd]
    simp only [Option.map_some]
    exact congrArg (fun t => some (t, Shown.bytes (240 :: rest))) (by decide +kernel)
  · intro hex a b ha hb na nb same
    rw [na, nb] at same
    exact C204_bytes hex true a b ha hb same

example : properties 2 [] [240, 65, 16, 66, 247] = some (lit "Kemper: SysEx", .bytes [240, 65, 16, 66, 247]) := by decide +kernel

/-- C204: a short SysEx message for the Kemper is shown with the bytes between its header and its end. -/
theorem C204_short (productType : Nat) (params : List (Text × Param)) (mid : List Nat) (stop : Nat) (short : mid.length ≤ 2)
    (h : parameterProps productType ([240, 0, 32, 51] ++ mid ++ [stop]) params = none) :
    properties productType params ([240, 0, 32, 51] ++ mid ++ [stop]) = some (lit "Kemper: SysEx", .bytes mid) := by
  unfold properties
  rw [h]
  have hp : protocolProps productType ([240, 0, 32, 51] ++ mid ++ [stop]) = none := by
    unfold protocolProps
    rw [if_neg, if_neg]
    all_goals
      intro e
      have := congrArg List.length e
      simp at this
      omega
  have hd : determine ([240, 0, 32, 51] ++ mid ++ [stop]) = some (lit "SysEx", .bytes mid) := by
    unfold determine
    rw [if_pos (by simp), if_neg (by simp; omega)]
    simp [Wire.slice]
  rw [hp, hd]
  simp only [Option.map_some]
  exact congrArg (fun t => some (t, Shown.bytes mid)) (by decide +kernel)

example : properties 2 [] [240, 0, 32, 51, 7, 247] = some (lit "Kemper: SysEx", .bytes [7]) := by decide +kernel

namespace C204
/-- Two parameters: the volume of the rig, and the name of the rig; the volume is also set by a control change. -/
def volume : Param := { send := some (.nrpn [4, 1]), receive := [.cc 7 (some 128), .nrpn [4, 1]], value := .num 300 }
def rigName : Param := { send := some (.nrpn [0, 1]), receive := [.nrpn [0, 1]], value := .str [65, 66] }
def params : List (Text × Param) := [(lit "Volume", volume), (lit "Name", rigName)]
end C204

example : Spec.Device params ∧ Spec.Addresses params ∧ Spec.Takes 2 params [240, 0, 32, 51, 2, 127, 67, 0, 0, 1, 247] (lit "Name") .request
    ∧ Spec.Takes 2 params [176, 7, 3] (lit "Volume") (.set (.num 384)) := by
  refine ⟨?_, ?_, ⟨[(lit "Volume", volume)], rigName, [], rfl, by decide +kernel, by decide +kernel⟩, ⟨[], volume, [(lit "Name", rigName)], rfl, by decide +kernel, by decide +kernel⟩⟩
  · intro e he k hk
    simp only [params, List.mem_cons, List.not_mem_nil, or_false] at he
    rcases he with rfl | rfl <;> simp only [volume, rigName, Option.some.injEq] at hk ⊢ <;> subst hk <;> decide
  · unfold Spec.Addresses params
    refine List.Pairwise.cons ?_ (List.Pairwise.cons (by simp) List.Pairwise.nil)
    intro b hb x y hx hy
    simp only [List.mem_singleton] at hb
    subst hb
    simp only [volume, rigName, Option.some.injEq, Key.nrpn.injEq] at hx hy
    subst hx; subst hy
    exact ⟨by decide, by decide⟩

example : properties 2 params [240, 0, 32, 51, 0, 0, 1, 0, 4, 1, 2, 44, 247] = some (lit "Kemper: Volume", .num 300)
    ∧ properties 2 params [177, 7, 3] = some (lit "Kemper: CC 7 (Channel 2)", .num 3) ∧ parameterProps 2 [177, 7, 3] params = none
    ∧ formatBytes true true [176, 7] = lit " b0,  07" := by decide +kernel

/-- C204, witness: the name of an unknown NRPN message has no address, and its value contains it. So requests of any two unknown parameters have the same name (to ignore one of them is to ignore both), and
the address is shown as the value; and a numeric value is shown as a text of four characters. -/
theorem C204_nrpn_witness : (properties 2 [] [240, 0, 32, 51, 2, 127, 65, 0, 4, 1, 247]).map Prod.fst = (properties 2 [] [240, 0, 32, 51, 2, 127, 65, 0, 60, 3, 247]).map Prod.fst
    ∧ properties 2 [] [240, 0, 32, 51, 2, 127, 65, 0, 4, 1, 247] = some (lit "Kemper: NRPN Function 65", .num 513)
    ∧ properties 2 [] [240, 0, 32, 51, 2, 127, 1, 0, 4, 1, 64, 65, 247] = some (lit "Kemper: NRPN Function 1", .text [4, 1, 64, 65]) := by decide +kernel

/-- C204, witness: in hexadecimal mode, numbers of values are still written decimal. -/
theorem C204_hex_witness (n : Nat) (name : Text) (message : List Nat) : formatValue true (some (name, .num n)) message = formatValue false (some (name, .num n)) message := rfl

/-- C204, witness: note messages have no name. -/
theorem C204_note_witness (params : List (Text × Param)) (n v : Nat) (h : parameterProps 2 [144, n, v] params = none) : properties 2 params [144, n, v] = none := by
  unfold properties
  rw [h]
  have hp : protocolProps 2 [144, n, v] = none := by unfold protocolProps; rw [if_neg (by simp), if_neg (by simp)]
  have hd : determine [144, n, v] = none := by unfold determine; rw [if_neg (by simp)]; simp
  rw [hp, hd]; rfl

end PySwitch.Props
