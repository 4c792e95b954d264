import Verif.Spec.CommSettings
import Verif.Lemmas.PropertiesNames
/-!
C181: The channels which are entered in the communication settings of the emulator are the ones it uses.
-/
namespace PySwitch.Props
open PySwitch.CommSettings PySwitch.CommSettings.Spec
open PySwitch.Properties (Text lit intText parseInt parseInt_nat intText_nat)

namespace C181

theorem not_all (n : Nat) : intText (n : Int) ≠ lit "All" := by
  intro h
  have hd : ∀ c ∈ intText (n : Int), c.isDigit = true := by
    intro c hc
    rw [intText_nat] at hc
    exact Nat.isDigit_of_mem_toDigits (by decide) (by decide) hc
  rw [h] at hd
  exact absurd (hd 'A' (by decide)) (by decide)

theorem parse_channel (n : Nat) (h : 1 ≤ n) : parse (intText (n : Int)) = some ((n - 1 : Nat) : Int) := by
  rw [parse, if_neg (not_all n), parseInt_nat]
  simp only [Option.map_some, Option.some.injEq]
  omega

theorem parse_all : parse (lit "All") = none := if_pos rfl

theorem run_append (s : State) (a b : List Op) : s.run (a ++ b) = (s.run a).run b := List.foldl_append

/-- The stored channels after any actions. -/
theorem stored_run (ops : List Op) : ∀ (s : State) (i o : Option Text), s.stored.inChannel = i.map parse → s.stored.outChannel = o.map parse →
    (s.run ops).stored.inChannel = (lastIn i ops).map parse ∧ (s.run ops).stored.outChannel = (lastOut o ops).map parse := by
  induction ops with
  | nil => exact fun s i o hi ho => ⟨hi, ho⟩
  | cons op ops ih =>
    intro s i o hi ho
    cases op with
    | inChannel t => exact ih (s.step (.inChannel t)) (some t) o rfl ho
    | outChannel t => exact ih (s.step (.outChannel t)) i (some t) hi rfl
    | debug b => exact ih (s.step (.debug b)) i o hi ho
    | reset => exact ih (s.step .reset) none none rfl rfl
    | apply => exact ih (s.step .apply) i o hi ho
    | load => exact ih (s.step .load) i o hi ho

theorem lastIn_apply (ops : List Op) (op : Op) (h : op = .apply ∨ op = .load) : ∀ t, lastIn t (ops ++ [op]) = lastIn t ops := by
  induction ops with
  | nil => intro t; rcases h with rfl | rfl <;> rfl
  | cons a ops ih => intro t; cases a <;> exact ih _

theorem setIn_channel (n : Nat) (h : IsChannel n) : setIn (some ((n - 1 : Nat) : Int)) = some [n - 1] := by
  have hc : (0 : Int) ≤ ((n - 1 : Nat) : Int) ∧ ((n - 1 : Nat) : Int) ≤ 15 := by have := h.1; have := h.2; omega
  simp only [setIn, if_pos hc, Int.toNat_natCast]

theorem setOut_channel (n : Nat) (h : IsChannel n) : setOut (some ((n - 1 : Nat) : Int)) = some (n - 1) := by
  have hc : (0 : Int) ≤ ((n - 1 : Nat) : Int) ∧ ((n - 1 : Nat) : Int) ≤ 15 := by have := h.1; have := h.2; omega
  simp only [setOut, if_pos hc, Int.toNat_natCast]

theorem shown_channel (n : Nat) (h : 1 ≤ n) : intText (((n - 1 : Nat) : Int) + 1) = intText (n : Int) := by
  congr 1; omega

/-- The state after Apply (or after opening the page again). -/
theorem applied (s : State) (op : Op) (h : op = .apply ∨ op = .load) : s.step op = ⟨s.stored, form s.stored, start s.stored⟩ := by
  rcases h with rfl | rfl <;> rfl

end C181

/-- After any actions in a new browser, if the texts entered last since the last reset are channels (or "All" for the input), then after Apply, and after every time the page is
opened again, the emulator runs; it hears exactly the messages of the entered input channel, or of all channels if "All" or nothing has been entered; it sends to the entered output channel, or
channel 1 if nothing has been entered. -/
theorem C181_used_partial (ops : List Op) (op : Op) (hop : op = .apply ∨ op = .load) (ni no : Nat)
    (hi : lastIn none ops = none ∨ lastIn none ops = some (lit "All") ∨ ∃ t, lastIn none ops = some t ∧ Means t ni)
    (ho : (lastOut none ops = none ∧ no = 1) ∨ ∃ t, lastOut none ops = some t ∧ Means t no) :
    ∃ d, ((State.load .empty).run (ops ++ [op])).device = some d ∧ d.sends + 1 = no ∧
      ∀ c, c < 16 → (d.hears c = true ↔ ∀ t, lastIn none ops = some t → t = lit "All" ∨ c + 1 = ni) := by
  rw [C181.run_append]
  obtain ⟨h1, h2⟩ := C181.stored_run ops (State.load .empty) none none rfl rfl
  generalize (State.load .empty).run ops = s at h1 h2
  show ∃ d, (s.step op).device = some d ∧ _
  rw [C181.applied s op hop]
  show ∃ d, start s.stored = some d ∧ _
  have hout : ∃ o, setOut (givenOut s.stored) = some o ∧ o + 1 = no := by
    rw [givenOut, h2]
    rcases ho with ⟨ho, rfl⟩ | ⟨t, ho, hc, rfl⟩
    · rw [ho]; exact ⟨0, by decide, rfl⟩
    · rw [ho]
      refine ⟨no - 1, ?_, by have := hc.1; omega⟩
      simp only [Option.map_some]
      rw [C181.parse_channel no hc.1, C181.setOut_channel no hc]
  obtain ⟨o, hos, hon⟩ := hout
  have hin : ∃ l, setIn (givenIn s.stored) = some l ∧
      ∀ c, c < 16 → (Wire.channelFilter c l = true ↔ ∀ t, lastIn none ops = some t → t = lit "All" ∨ c + 1 = ni) := by
    rw [givenIn, h1]
    rcases hi with hi | hi | ⟨t, hi, hc, rfl⟩
    · rw [hi]
      refine ⟨List.range 16, rfl, fun c hlt => ?_⟩
      simp [Wire.channelFilter, hlt]
    · rw [hi]
      simp only [Option.map_some, C181.parse_all]
      refine ⟨List.range 16, rfl, fun c hlt => ?_⟩
      simp only [Wire.channelFilter, List.contains_iff_mem, List.mem_range]
      exact ⟨fun _ t ht => .inl (Option.some.inj ht).symm, fun _ => hlt⟩
    · rw [hi]
      simp only [Option.map_some]
      rw [C181.parse_channel ni hc.1]
      refine ⟨[ni - 1], C181.setIn_channel ni hc, fun c hlt => ?_⟩
      simp only [Wire.channelFilter, List.contains_iff_mem, List.mem_singleton]
      have := hc.1
      constructor
      · intro h t _; exact .inr (by omega)
      · intro h
        rcases h _ rfl with h | h
        · exact absurd h (C181.not_all ni)
        · omega
  obtain ⟨l, hl, hlc⟩ := hin
  refine ⟨⟨l, o⟩, ?_, hon, hlc⟩
  simp only [start]
  rw [hl, hos]

example : let ops : List Op := [.inChannel (lit "3"), .reset, .outChannel (lit "16"), .inChannel (lit "7"), .debug true]
    (lastIn none ops = some (lit "7") ∧ Means (lit "7") 7) ∧ (lastOut none ops = some (lit "16") ∧ Means (lit "16") 16) := by
  refine ⟨⟨rfl, ⟨by decide, by decide⟩, by decide⟩, rfl, ⟨by decide, by decide⟩, by decide⟩

/-- After Apply, and every time the page is opened again, the settings show the channels entered last since the last reset. -/
theorem C181_shown_partial (ops : List Op) (op : Op) (hop : op = .apply ∨ op = .load) :
    (∀ t n, lastIn none ops = some t → Means t n → ((State.load .empty).run (ops ++ [op])).form.inText = t) ∧
    ((lastIn none ops = none ∨ lastIn none ops = some (lit "All")) → ((State.load .empty).run (ops ++ [op])).form.inText = lit "All") ∧
    (∀ t n, lastOut none ops = some t → Means t n → ((State.load .empty).run (ops ++ [op])).form.outText = t) ∧
    (lastOut none ops = none → ((State.load .empty).run (ops ++ [op])).form.outText = lit "1") := by
  rw [C181.run_append]
  obtain ⟨h1, h2⟩ := C181.stored_run ops (State.load .empty) none none rfl rfl
  generalize (State.load .empty).run ops = s at h1 h2
  have hs : s.run [op] = ⟨s.stored, form s.stored, start s.stored⟩ := C181.applied s op hop
  rw [hs]
  simp only [form, Stored.getIn, Stored.getOut, h1, h2]
  refine ⟨fun t n ht hm => ?_, fun h => ?_, fun t n ht hm => ?_, fun h => ?_⟩
  · rw [ht, hm.2]
    simp only [Option.map_some, Option.getD_some]
    rw [C181.parse_channel n hm.1.1]
    exact C181.shown_channel n hm.1.1
  · rcases h with h | h <;> rw [h] <;> rfl
  · rw [ht, hm.2]
    simp only [Option.map_some, Option.getD_some]
    rw [C181.parse_channel n hm.1.1]
    exact C181.shown_channel n hm.1.1
  · rw [h]; decide

/-- The debug option is kept, and choosing it changes no channel, whatever has been stored. -/
theorem C181_debug (s : Stored) (b : Bool) :
    (((State.load s).run [.debug b, .load]).form.debug = b) ∧
    ((State.load s).run [.debug b, .load]).form.inText = (form s).inText ∧
    ((State.load s).run [.debug b, .load]).form.outText = (form s).outText ∧
    ((State.load s).run [.debug b, .load]).device = (State.load s).device := ⟨rfl, rfl, rfl, rfl⟩

/-- Entering a channel has no effect on the running emulator before Apply, Reset or a new start. -/
theorem C181_waits (s : State) (ops : List Op) (h : ∀ op ∈ ops, op ≠ .apply ∧ op ≠ .reset ∧ op ≠ .load) : (s.run ops).device = s.device := by
  induction ops generalizing s with
  | nil => rfl
  | cons op ops ih =>
    have ho := h op List.mem_cons_self
    have hr := ih (s.step op) fun x hx => h x (List.mem_cons_of_mem _ hx)
    show ((s.step op).run ops).device = s.device
    rw [hr]
    cases op with
    | inChannel t => rfl
    | outChannel t => rfl
    | debug b => rfl
    | reset => exact absurd rfl ho.2.1
    | apply => exact absurd rfl ho.1
    | load => exact absurd rfl ho.2.2

example : ∀ op ∈ [Op.inChannel (lit "3"), .outChannel (lit "x"), .debug true], op ≠ .apply ∧ op ≠ .reset ∧ op ≠ .load := by decide

/-- Reset brings back the defaults whatever has been entered: all channels, channel 1, no debug output, and the emulator runs with them. -/
theorem C181_reset (s : State) : (s.step .reset).form = ⟨lit "All", lit "1", false⟩ ∧ ∃ d, (s.step .reset).device = some d ∧ d.sends = 0 ∧ ∀ c, c < 16 → d.hears c = true := by
  have hf : form .empty = ⟨lit "All", lit "1", false⟩ := by decide
  have hd : start .empty = some ⟨List.range 16, 0⟩ := by decide
  refine ⟨hf, ⟨List.range 16, 0⟩, hd, rfl, fun c hc => ?_⟩
  simp [Device.hears, Wire.channelFilter, hc]

/-- "All" as output channel: the settings show channel 1 after Apply, but the emulator does not start. -/
theorem C181_all_witness : ∃ s, s = (State.load .empty).run [.outChannel (lit "All"), .apply] ∧ s.form.outText = lit "1" ∧ s.device = none := by
  refine ⟨_, rfl, ?_, ?_⟩ <;> decide

/-- A text which is no channel is taken as input channel: "x" makes the emulator listen to all channels. -/
theorem C181_text_witness : ∃ s, s = (State.load .empty).run [.inChannel (lit "5"), .apply, .inChannel (lit "x"), .apply] ∧ s.form.inText = lit "All" ∧
    s.device = some ⟨List.range 16, 0⟩ := by
  refine ⟨_, rfl, ?_, ?_⟩ <;> decide

/-- Channels 0 and 17 are taken, shown, and the emulator does not start with them, also when the page is opened again. -/
theorem C181_range_witness : ∀ t ∈ [lit "0", lit "17"], ∃ s, s = (State.load .empty).run [.outChannel t, .apply, .load] ∧ s.form.outText = t ∧ s.device = none := by
  intro t ht
  refine ⟨_, rfl, ?_⟩
  revert t
  decide

end PySwitch.Props
