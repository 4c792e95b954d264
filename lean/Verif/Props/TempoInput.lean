import Verif.Spec.TempoInput
/-
C211: the input for the tempo of the emulated Kemper device.
-/
namespace PySwitch.Props
open PySwitch.TempoInput PySwitch.TempoInput.Spec

namespace C211

/-- What the input contains for a tempo which is set. -/
def ofNat (k : Nat) : Bpm := if k = 0 then .null else .number k

theorem bpm_periodOf (k : Nat) : bpm (periodOf k) = ofNat k := by
  unfold periodOf ofNat
  split
  · rfl
  · simp only [bpm]
    rw [if_neg (by omega)]
    congr 1
    omega

theorem encode_ofNat (k : Nat) : encode (ofNat k) = if 256 ≤ k then 16383 else k * 64 := by
  unfold ofNat
  split
  · rename_i h; subst h; rfl
  · rfl

theorem decode_encode (k : Nat) : decode (encode (ofNat k)) = min k 256 := by
  rw [encode_ofNat]
  unfold decode
  split
  · rw [if_pos rfl]; omega
  · rw [if_neg (by omega)]; omega

/-- The parameter is set to another value: the tempo is the nearest one, at most 256. -/
theorem write_eq (fuel : Nat) (s : Tempo) (v : Nat) : write (fuel + 3) s v = if s.value = v then s else
    { s with value := encode (ofNat (min (decode v) 256)), period := periodOf (min (decode v) 256), input := ofNat (min (decode v) 256) } := by
  have unchanged : ∀ n (s : Tempo) v, s.value = v → write (n + 1) s v = s := by
    intro n s v h
    simp [write, h]
  rw [write]
  split
  · rfl
  · simp only [bpm_periodOf]
    by_cases h : v = encode (ofNat (decode v))
    · rw [unchanged (fuel + 1) _ _ h]
      have hd : min (decode v) 256 = decode v := by
        have := congrArg decode h
        rw [decode_encode] at this
        exact this.symm
      simp only [hd, bpm_periodOf]
      rw [← h]
    · rw [write, if_neg h]
      simp only [bpm_periodOf, decode_encode]
      have h2 : encode (ofNat (decode v)) = encode (ofNat (min (decode v) 256)) := by
        rw [encode_ofNat, encode_ofNat]
        split
        · rw [if_pos (by omega)]
        · rw [if_neg (by omega)]; congr 1; omega
      rw [unchanged fuel _ _ h2]
      simp only [bpm_periodOf]
      rw [← h2]

/-- More fuel changes nothing: the calls end. -/
theorem fuel (n : Nat) (s : Tempo) (v : Nat) : write (n + 3) s v = write 3 s v := by
  rw [write_eq, write_eq 0]

def Inv (s : Tempo) : Prop := s.input = bpm s.period ∧ s.value = encode (bpm s.period)

theorem inv_write {s : Tempo} (h : Inv s) (v : Nat) : Inv (write 3 s v) := by
  rw [write_eq 0]
  split
  · exact h
  · exact ⟨(bpm_periodOf _).symm, by rw [bpm_periodOf]⟩

theorem inv_notify (s : Tempo) : Inv s.notify := by
  unfold Tempo.notify
  rw [write_eq 0]
  split
  · rename_i h; exact ⟨rfl, h⟩
  · exact ⟨rfl, by rw [bpm_periodOf]⟩

theorem inv_step {s : Tempo} (h : Inv s) (e : Event) : Inv (s.step e) := by
  cases e with
  | type n => exact inv_notify _
  | message v => exact inv_write h v
  | tap now v =>
    simp only [Tempo.step]
    split
    · exact h
    · unfold Tempo.tap
      split
      · exact h
      · split
        · exact h
        · split
          · exact h
          · exact inv_notify _

theorem inv_run (es : List Event) (s : Tempo) (h : Inv s) : Inv (s.run es) := by
  induction es generalizing s with
  | nil => exact h
  | cons e es ih => exact ih _ (inv_step h e)

theorem inv_at (es : List Event) : Inv (Tempo.init.run es) := inv_run es _ ⟨by decide, by decide⟩

end C211

/-- C211. After every history, the input contains the tempo of the device: the number of times two periods fit into a minute, rounded. It is empty without period. -/
theorem C211_shown (history : List Event) :
    ((Tempo.init.run history).period = none → (Tempo.init.run history).input = .null) ∧
    ∀ p, (Tempo.init.run history).period = some p → 0 < p.num → ∃ n, (Tempo.init.run history).input = .number n ∧ Nearest n (30000 * p.den) p.num := by
  obtain ⟨h1, -⟩ := C211.inv_at history
  rw [h1]
  refine ⟨fun h => by rw [h]; rfl, ?_⟩
  intro p h pos
  refine ⟨(60000 * p.den + p.num) / (2 * p.num), by rw [h]; simp only [bpm]; rw [if_neg (by omega)], ?_, ?_⟩
  · have := Nat.div_mul_le_self (60000 * p.den + p.num) (2 * p.num)
    calc _ = (60000 * p.den + p.num) / (2 * p.num) * (2 * p.num) := by rw [← Nat.mul_assoc, Nat.mul_comm 2]
      _ ≤ _ := this
      _ = _ := by omega
  · have := Nat.lt_div_mul_add (a := 60000 * p.den + p.num) (b := 2 * p.num) (by omega)
    calc _ = 60000 * p.den + p.num := by omega
      _ < _ := this
      _ = ((60000 * p.den + p.num) / (2 * p.num) + 1) * (2 * p.num) := by rw [Nat.add_mul, Nat.one_mul]
      _ = _ := by rw [← Nat.mul_assoc, Nat.mul_comm _ 2]

/-- C211. After every history, the parameter tells the tempo the input contains. -/
theorem C211_told (history : List Event) : Tells (Tempo.init.run history).value (Tempo.init.run history).input := by
  obtain ⟨h1, h2⟩ := C211.inv_at history
  rw [h1, h2]
  cases bpm (Tempo.init.run history).period with
  | null => rfl
  | infinity => rfl
  | number n =>
    show _ ∨ _
    simp only [encode]
    split
    · exact .inr ⟨by assumption, rfl⟩
    · exact .inl ⟨by omega, by omega⟩

/-- C211. A tempo up to 256 which is typed is the tempo of the device, whatever has happened before. With 0 there is no tempo. -/
theorem C211_typed (history : List Event) (n : Nat) (most : n ≤ 256) :
    (Tempo.init.run (history ++ [.type n])).input = if n = 0 then .null else .number n := by
  simp only [Tempo.run, List.foldl_append, List.foldl_cons, List.foldl_nil, Tempo.step, Tempo.set, Tempo.notify]
  rw [C211.write_eq 0]
  simp only [C211.bpm_periodOf, C211.decode_encode]
  split
  · exact C211.bpm_periodOf n
  · show bpm (periodOf _) = _
    rw [C211.bpm_periodOf, show min (min n 256) 256 = n by omega]
    rfl

/-- C211 (partial). A faster tempo becomes 256. Missing: if the parameter already tells the greatest tempo (false there, see the witness). -/
theorem C211_fast_partial (history : List Event) (n : Nat) (fast : 256 < n) (below : (Tempo.init.run history).value ≠ 16383) :
    (Tempo.init.run (history ++ [.type n])).input = .number 256 ∧ (Tempo.init.run (history ++ [.type n])).value = 16383 := by
  have e : Tempo.init.run (history ++ [.type n]) = (Tempo.init.run history).step (.type n) := by simp [Tempo.run, List.foldl_append]
  rw [e]
  simp only [Tempo.step, Tempo.set, Tempo.notify]
  rw [C211.write_eq 0]
  simp only [C211.bpm_periodOf, C211.decode_encode]
  rw [if_neg (by rw [C211.encode_ofNat, if_pos (by omega)]; exact below), show min (min n 256) 256 = 256 by omega]
  exact ⟨show bpm (periodOf 256) = .number 256 by decide, show encode (C211.ofNat 256) = 16383 by decide⟩

/-- C211. A message with another value sets the nearest tempo, at most 256. The same value changes nothing. -/
theorem C211_message (history : List Event) (v : Nat) :
    ((Tempo.init.run history).value = v → Tempo.init.run (history ++ [.message v]) = Tempo.init.run history) ∧
    ((Tempo.init.run history).value ≠ v → ∀ n, Nearest n v 64 → 0 < n → (Tempo.init.run (history ++ [.message v])).input = .number (min n 256)) := by
  have e : Tempo.init.run (history ++ [.message v]) = write 3 (Tempo.init.run history) v := by simp [Tempo.run, List.foldl_append, Tempo.step]
  rw [e, C211.write_eq 0]
  constructor
  · intro h
    rw [if_pos h]
  · intro h n near pos
    rw [if_neg h]
    show C211.ofNat _ = _
    obtain ⟨h1, h2⟩ := near
    have hd : min (decode v) 256 = min n 256 := by
      unfold decode
      split <;> omega
    rw [hd]
    unfold C211.ofNat
    rw [if_neg (by omega)]

/-- C211. The button for the tempo is pressed for the second time within three seconds: the tempo is the nearest to one beat in the time between (up to 256). -/
theorem C211_tapped (history : List Event) (last now : Nat) (pressed : (Tempo.init.run history).lastTap = some last) (released : (Tempo.init.run history).button ≠ 1)
    (later : last < now) (soon : now ≤ last + 3000) (n : Nat) (near : Nearest n 60000 (now - last)) (most : n ≤ 256) :
    (Tempo.init.run (history ++ [.tap now 1])).input = .number n ∧ (Tempo.init.run (history ++ [.tap now 1])).lastTap = some now := by
  have e : Tempo.init.run (history ++ [.tap now 1]) = (Tempo.init.run history).step (.tap now 1) := by simp [Tempo.run, List.foldl_append]
  rw [e]
  generalize Tempo.init.run history = s at pressed released ⊢
  obtain ⟨d, hd, hd'⟩ : ∃ d, now - last = d ∧ 0 < d := ⟨_, rfl, by omega⟩
  have hb : bpm (some ⟨d, 2⟩) = .number n := by
    simp only [bpm]
    rw [if_neg (by omega)]
    congr 1
    rw [hd] at near
    obtain ⟨h1, h2⟩ := near
    apply Nat.div_eq_of_lt_le
    · calc n * (2 * d) = 2 * n * d := by rw [← Nat.mul_assoc, Nat.mul_comm n 2]
        _ ≤ _ := h1
    · calc _ < 2 * (n + 1) * d := h2
        _ = (n + 1) * (2 * d) := by rw [← Nat.mul_assoc, Nat.mul_comm (n + 1) 2]
  have hn : n ≠ 0 := by
    rintro rfl
    obtain ⟨-, h2⟩ := near
    omega
  have hnat : Bpm.number n = C211.ofNat n := by simp [C211.ofNat, hn]
  simp only [Tempo.step, if_neg released, Tempo.tap, pressed]
  rw [if_neg (by simp), if_neg (by omega)]
  simp only [Tempo.notify, hd]
  rw [C211.write_eq 0]
  simp only [hb]
  split
  · exact ⟨hb, rfl⟩
  · refine ⟨?_, rfl⟩
    rw [hnat, C211.decode_encode]
    show bpm (periodOf _) = _
    rw [C211.bpm_periodOf]
    congr 1
    omega

/-- C211. The first press, or one after more than three seconds, only starts a new measurement. -/
theorem C211_first (s : Tempo) (now : Nat) (released : s.button ≠ 1) (start : ∀ last, s.lastTap = some last → last + 3000 < now) :
    s.step (.tap now 1) = { s with button := 1, lastTap := some now } := by
  simp only [Tempo.step, if_neg released, Tempo.tap]
  rw [if_neg (by simp)]
  cases h : s.lastTap with
  | none => rfl
  | some last =>
    simp only
    rw [if_pos (by have := start last h; omega)]

/-- C211. Releasing the button changes nothing else. -/
theorem C211_release (s : Tempo) (now v : Nat) (released : v ≠ 1) : s.step (.tap now v) = { s with button := v } := by
  simp only [Tempo.step, Tempo.tap, if_pos released]
  split
  · rename_i h; subst h; rfl
  · rfl

/-- C211. Messages which repeat the state of the button change nothing. -/
theorem C211_repeated (s : Tempo) (now : Nat) : s.step (.tap now s.button) = s := by
  simp [Tempo.step]

/-- C211, the code (`VirtualKemperParameter.js:204`, `VirtualKemperClientSetup.js:121-129`): a tempo of 300 becomes 256 when it is typed, but 300 when it is typed again, although the parameter tells
256 both times. -/
theorem C211_fast_witness : (Tempo.init.run [.type 300]).input = .number 256 ∧ (Tempo.init.run [.type 300, .type 300]).input = .number 300 ∧
    (Tempo.init.run [.type 300, .type 300]).value = 16383 := by decide +kernel

/-- C211, the code: in general, every faster tempo is kept if the parameter already tells the greatest one. -/
theorem C211_faster_witness (history : List Event) (n : Nat) (fast : 256 < n) (greatest : (Tempo.init.run history).value = 16383) :
    (Tempo.init.run (history ++ [.type n])).input = .number n := by
  have e : Tempo.init.run (history ++ [.type n]) = (Tempo.init.run history).step (.type n) := by simp [Tempo.run, List.foldl_append]
  rw [e]
  simp only [Tempo.step, Tempo.set, Tempo.notify]
  rw [C211.write_eq 0]
  simp only [C211.bpm_periodOf]
  rw [if_pos (by rw [C211.encode_ofNat, if_pos (by omega)]; exact greatest)]
  show bpm (periodOf n) = _
  rw [C211.bpm_periodOf]
  simp [C211.ofNat, show n ≠ 0 by omega]

/-- C211, the code (`VirtualKemperTempo.js:68-74`): two taps within the same millisecond while the parameter tells the greatest tempo make the input contain `Infinity`. -/
theorem C211_infinity_witness : (Tempo.init.run [.message 16383, .tap 5 1, .tap 5 0, .tap 5 1]).input = .infinity := by decide +kernel

/-- Non-vacuity: the button is pressed twice with half a second between, after a tempo was typed. -/
example : (Tempo.init.run [.type 90, .tap 1000 1, .tap 1100 0]).lastTap = some 1000 ∧ (Tempo.init.run [.type 90, .tap 1000 1, .tap 1100 0]).button ≠ 1 ∧
    Nearest 120 60000 (1500 - 1000) ∧ (Tempo.init.run [.type 90, .tap 1000 1, .tap 1100 0, .tap 1500 1]).input = .number 120 := by
  refine ⟨by decide +kernel, by decide +kernel, ⟨by decide, by decide⟩, by decide +kernel⟩

example : (Tempo.init.run [.type 90]).value ≠ 100 ∧ Nearest 2 100 64 ∧ (Tempo.init.run [.type 90]).value ≠ 16383 ∧ (Tempo.init.run [.type 300]).value = 16383 :=
  ⟨by decide +kernel, ⟨by decide, by decide⟩, by decide +kernel, by decide +kernel⟩

example : Tempo.init.button ≠ 1 ∧ ∀ last, Tempo.init.lastTap = some last → last + 3000 < 5 := ⟨by decide, by intro _ h; cases h⟩

end PySwitch.Props
