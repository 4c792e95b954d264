import Verif.Model.RigInput
import Verif.Spec.RigInput
import Verif.Lemmas.VirtualSetup
/-
C210: the input for the rig of the emulated Kemper device.
-/
namespace PySwitch.Props
open PySwitch.Kemper.Virtual PySwitch.Kemper.Setup PySwitch.Kemper.Setup.Spec PySwitch.RigInput PySwitch.RigInput.Spec

namespace C210

theorem fired_own {d : Device} {p : Player} (h : View d p) {c v j : Nat} {nb : Bool} {sd : Option PySwitch.Kemper.Virtual.Key}
    {sets : List Nat} (hj : j < 44)
    (ht : T[j]? = some { send := sd, receive := [.cc c none], value := .num 0, sets, noBuffer := nb })
    (hpl : ∀ k, place c k = true → k = j) {q : Param} (hq' : d.params[j]? = some q) :
    fired 2 d.params [176, c, v] = if fires q (.num v) then some (q, .num v) else none := by
  obtain ⟨n, hq⟩ := h.shape.rigParam hj ht
  rw [hq'] at hq
  simp only [Option.some.injEq] at hq
  have hhit : q.hit 2 [176, c, v] = some (.set (.num v)) := by
    rw [hit_cc, hq]
    simp
  rcases parse_cases h.shape d.proto.parameterSet [176, c, v] with ⟨k, q2, hit, hk, hq2, -, hh, hpp, hf⟩ | ⟨hno, -, -⟩
  · have hkj := hpl k (h.shape.cc_place hk hq2 hh)
    subst hkj
    rw [hq'] at hq2
    simp only [Option.some.injEq] at hq2
    subst hq2
    rw [hhit] at hh
    simp only [Option.some.injEq] at hh
    subst hh
    exact hf
  · have := hno j q hj hq'
    rw [hhit] at this
    simp at this

theorem calls_bank {d : Device} {p : Player} (h : View d p) {c : Nat} (hc : c = 48 ∨ c = 49) (v : Nat) : calls d [176, c, v] = true := by
  generalize hjdef : c - 23 = j
  have hcj : (c = 48 ∧ j = 25) ∨ (c = 49 ∧ j = 26) := by omega
  have ht : T[j]? = some { send := none, receive := [.cc c none], value := .num 0, sets := [], noBuffer := true } := by
    rcases hcj with ⟨rfl, rfl⟩ | ⟨rfl, rfl⟩ <;> rfl
  obtain ⟨w, hq⟩ := h.shape.rigParam (by omega) ht
  have hf := fired_own h (v := v) (by omega) ht (by intro k hk; simp only [place] at hk; grind) hq
  have h47 : ¬List.take 2 [176, c, v] = [176, 47] := by simp; omega
  simp only [calls, if_neg h47, h.product, hf]
  rcases hc with rfl | rfl <;> simp [fires, watched]

theorem calls_button {d : Device} {p : Player} (h : View d p) {c : Nat} (h1 : 50 ≤ c) (h2 : c ≤ 54) (v : Nat) :
    calls d [176, c, v] = true ↔ p.button (c - 50) ≠ v := by
  obtain ⟨s, rfl⟩ : ∃ s, c = 50 + s := ⟨c - 50, by omega⟩
  have hs : s < 5 := by omega
  have ht : T[20 + s]? = some { send := none, receive := [.cc (50 + s) none], value := .num 0, sets := [], noBuffer := false } := by
    rcases (by omega : s = 0 ∨ s = 1 ∨ s = 2 ∨ s = 3 ∨ s = 4) with rfl | rfl | rfl | rfl | rfl <;> rfl
  obtain ⟨n, hq⟩ := h.shape.rigParam (by omega) ht
  have hn : n = p.button s := by
    have := h.buttons s hs
    simp only [val, hq, Option.map_some, Option.some.injEq, PVal.num.injEq] at this
    exact this
  have hf := fired_own h (v := v) (by omega) ht (by intro k hk; simp only [place] at hk; grind) hq
  have h47 : ¬List.take 2 [176, 50 + s, v] = [176, 47] := by simp; omega
  simp only [calls, if_neg h47, h.product, hf]
  subst hn
  have e : 50 + s - 50 = s := by omega
  rw [e]
  by_cases hv : p.button s = v
  · simp [fires, hv]
  · rcases (by omega : s = 0 ∨ s = 1 ∨ s = 2 ∨ s = 3 ∨ s = 4) with rfl | rfl | rfl | rfl | rfl <;> simp [fires, hv, watched]

theorem singles : ∀ j : Fin 44, ∀ t ∈ T[j.val]?, (!watched t || match t.receive with
    | [.cc c none] => decide (48 ≤ c ∧ c ≤ 54)
    | _ => false) = true := by decide +kernel

/-- Only the controls 48 to 54 call the callback. -/
theorem calls_range {d : Device} {p : Player} (h : View d p) {m : List Nat} (hc : calls d m = true) : ∃ c, 48 ≤ c ∧ c ≤ 54 ∧ m.take 2 = [176, c] := by
  unfold calls at hc
  split at hc
  · exact absurd hc (by simp)
  rw [h.product] at hc
  split at hc
  · exact absurd hc (by simp)
  rename_i x w hf
  have key : ∃ c s, x.receive = [.cc c s] ∧ 48 ≤ c ∧ c ≤ 54 ∧ (x.hit 2 m).isSome := by
    rcases parse_cases h.shape d.proto.parameterSet m with ⟨k, q, hit, hk, hq, -, hh, -, hf'⟩ | ⟨-, -, hf'⟩
    · have hx : x = q := by
        rw [hf'] at hf
        cases hit with
        | request => simp at hf
        | set u =>
          simp only at hf
          split at hf
          · simp only [Option.some.injEq, Prod.mk.injEq] at hf; exact hf.1.symm
          · simp at hf
      subst hx
      obtain ⟨q', hq', hs⟩ := h.shape.at hk
      rw [hq] at hq'
      simp only [Option.some.injEq] at hq'
      subst hq'
      have ht := singles ⟨k, hk⟩ (skel x) hs.symm
      have hw : watched (skel x) = true := hc
      rw [hw] at ht
      simp only [Bool.not_true, Bool.false_or] at ht
      split at ht
      · rename_i c hr
        have := of_decide_eq_true ht
        exact ⟨c, none, hr, this.1, this.2, by simp [hh]⟩
      · exact absurd ht (by simp)
    · obtain ⟨⟨key, hr, -, -⟩, h2⟩ := hf' x w hf
      unfold watched at hc
      rw [hr] at hc
      cases key with
      | cc c s =>
        simp at hc
        exact ⟨c, s, hr, by omega, by omega, h2⟩
      | nrpn data => simp at hc
      | pc => simp at hc
  obtain ⟨c, s, hr, h1, h2, hh⟩ := key
  refine ⟨c, h1, h2, ?_⟩
  unfold Param.hit at hh
  rw [hr] at hh
  by_cases e : m.take 2 = [176, c]
  · exact e
  · simp [hitKey, e] at hh

theorem calls_iff {d : Device} {p : Player} (h : View d p) {now : Int} {date : List Nat} {m : List Nat} (hm : Midi m) :
    calls d m = true ↔ ByHand p (.receive now date m) := by
  have hex : ∀ c v, calls d [176, c, v] = true ↔ ByHand p (.receive now date [176, c, v]) := by
    intro c v
    show _ ↔ (c = 48 ∨ c = 49 ∨ (50 ≤ c ∧ c ≤ 54 ∧ p.button (c - 50) ≠ v))
    by_cases hb : c = 48 ∨ c = 49
    · rw [calls_bank h hb v]
      exact ⟨fun _ => by omega, fun _ => rfl⟩
    by_cases hr : 50 ≤ c ∧ c ≤ 54
    · rw [calls_button h hr.1 hr.2 v]
      exact ⟨fun e => .inr (.inr ⟨hr.1, hr.2, e⟩), fun e => by
        rcases e with e | e | e
        · omega
        · omega
        · exact e.2.2⟩
    · constructor
      · intro hc
        obtain ⟨c', h1, h2, e⟩ := calls_range h hc
        simp at e
        omega
      · intro e
        rcases e with e | e | e
        · omega
        · omega
        · exact absurd ⟨e.1, e.2.1⟩ hr
  rcases hm with ⟨c, v, rfl, -, -⟩ | ⟨v, rfl, -⟩ | hm
  · exact hex c v
  · constructor
    · intro hc
      obtain ⟨c, -, -, e⟩ := calls_range h hc
      simp at e
    · exact fun e => e.elim
  · constructor
    · intro hc
      obtain ⟨c, -, -, e⟩ := calls_range h hc
      cases m with
      | nil => simp at hm
      | cons a m => simp at hm e; omega
    · intro e
      unfold ByHand at e
      split at e
      · rename_i x; cases x; simp at hm
      · rename_i x; cases x
      · exact e.elim

theorem device_step (s : Panel) (e : Ev) : (s.step e).device = (s.device.step e).1 := by
  unfold Panel.step
  split <;> rfl

theorem device_run (s : Panel) (es : List Ev) : (s.run es).device = (s.device.run es).1 := by
  induction es generalizing s with
  | nil => rfl
  | cons e es ih =>
    show ((s.step e).run es).device = _
    rw [ih, device_step]
    rfl

theorem run_append (s : Panel) (es : List Ev) (e : Ev) : s.run (es ++ [e]) = (s.run es).step e := by
  simp [Panel.run, List.foldl_append]

theorem view_at (now : Int) (date : List Nat) (es : List Ev) (he : ∀ e ∈ es, Proper e) :
    View ((Panel.init (initial now date)).run es).device (es.foldl Player.step {}) := by
  rw [device_run]
  exact view_run (view_initial now date) es he

theorem id_at (now : Int) (date : List Nat) (es : List Ev) (he : ∀ e ∈ es, Proper e) :
    ((Panel.init (initial now date)).run es).device.rigId = (es.foldl Player.step {}).rig := by
  have h := view_at now date es he
  exact h.rig.id h.shape

/-- The input after an event. -/
theorem input_step (now : Int) (date : List Nat) (es : List Ev) (he : ∀ e ∈ es, Proper e) (e : Ev) (hp : Proper e) :
    (ByHand (es.foldl Player.step {}) e → ((Panel.init (initial now date)).run (es ++ [e])).input = ((es ++ [e]).foldl Player.step {}).rig) ∧
    (¬ ByHand (es.foldl Player.step {}) e → ((Panel.init (initial now date)).run (es ++ [e])).input = ((Panel.init (initial now date)).run es).input) := by
  have hv := view_at now date es he
  have hid := id_at now date (es ++ [e]) (fun x hx => by
    rcases List.mem_append.1 hx with hx | hx
    · exact he x hx
    · rw [List.mem_singleton.1 hx]; exact hp)
  rw [run_append] at hid ⊢
  cases e with
  | receive now' date' m =>
    have hc := calls_iff hv (now := now') (date := date') hp
    constructor
    · intro hb
      rw [← hid, device_step]
      simp only [Panel.step, hc.2 hb, if_true]
    · intro hb
      have : ¬ calls ((Panel.init (initial now date)).run es).device m = true := fun x => hb (hc.1 x)
      simp only [Panel.step, this]
      rfl
  | update t => exact ⟨fun hb => hb.elim, fun _ => rfl⟩
  | tuner => exact ⟨fun hb => hb.elim, fun _ => rfl⟩
  | ui date' u =>
    cases u with
    | rig n => exact ⟨fun _ => by rw [List.foldl_append]; rfl, fun hb => (hb trivial).elim⟩
    | value a b v => exact ⟨fun hb => hb.elim, fun _ => rfl⟩

end C210

/-- C210. After every history of complete messages, updates and uses of the user interface, the input contains the rig as it was when a rig was last chosen by hand. -/
theorem C210_input (now : Int) (date : List Nat) (history : List Ev) (proper : ∀ e ∈ history, Proper e) (n : Nat) :
    LastByHand history.reverse n ↔ ((Panel.init (initial now date)).run history).input = n := by
  have det : ∀ (es : List Ev), (∀ e ∈ es, Proper e) → ∀ n, LastByHand es n ↔ ((Panel.init (initial now date)).run es.reverse).input = n := by
    intro es
    induction es with
    | nil =>
      intro _ n
      have h0 : ((Panel.init (initial now date)).run []).input = 0 := by
        have := C210.id_at now date [] (by simp)
        exact this
      rw [List.reverse_nil, h0]
      exact ⟨fun h => by cases h; rfl, fun h => h ▸ .start⟩
    | cons e es ih =>
      intro hp n
      have hps : ∀ x ∈ es.reverse, Proper x := fun x hx => hp x (by simp [List.mem_reverse.1 hx])
      have ih := ih (fun x hx => hp x (by simp [hx]))
      obtain ⟨h1, h2⟩ := C210.input_step now date es.reverse hps e (hp e (by simp))
      rw [List.reverse_cons]
      constructor
      · intro h
        cases h with
        | hand hb => rw [h1 hb, List.reverse_cons]
        | other hb old => rw [h2 hb]; exact (ih n).1 old
      · intro h
        by_cases hb : ByHand (es.reverse.foldl Player.step {}) e
        · rw [h1 hb] at h
          rw [← h, ← List.reverse_cons]
          exact .hand hb
        · rw [h2 hb] at h
          exact .other hb ((ih n).2 h)
  have := det history.reverse (fun e he => proper e (List.mem_reverse.1 he)) n
  rwa [List.reverse_reverse] at this

/-- C210 (partial). The input contains the active rig of the device, if no other device has told the number of the rig. Missing: histories with control change 32 or program change (false there, see
the witness). -/
theorem C210_active_partial (now : Int) (date : List Nat) (history : List Ev) (proper : ∀ e ∈ history, Proper e) (noRemote : ∀ e ∈ history, ¬ Remote e) :
    ((Panel.init (initial now date)).run history).input = ((Panel.init (initial now date)).run history).device.rigId := by
  rw [C210.id_at now date history proper]
  have step : ∀ (es : List Ev) (e : Ev), (∀ x ∈ es, Proper x) → Proper e → ¬ Remote e →
      ((Panel.init (initial now date)).run es).input = (es.foldl Player.step {}).rig →
      ((Panel.init (initial now date)).run (es ++ [e])).input = ((es ++ [e]).foldl Player.step {}).rig := by
    intro es e hps hp hr ih
    obtain ⟨h1, h2⟩ := C210.input_step now date es hps e hp
    by_cases hb : ByHand (es.foldl Player.step {}) e
    · exact h1 hb
    · rw [h2 hb, ih, List.foldl_append]
      show _ = (Player.step _ e).rig
      cases e with
      | update t => rfl
      | tuner => rfl
      | ui d u =>
        cases u with
        | rig n => exact (hb trivial).elim
        | value a b v => rfl
      | receive t d m =>
        rcases hp with ⟨c, v, rfl, -, -⟩ | ⟨v, rfl, -⟩ | hm
        · have h32 : c ≠ 32 := by
            rintro rfl
            exact hr trivial
          have hb' : ¬ (c = 48 ∨ c = 49 ∨ (50 ≤ c ∧ c ≤ 54 ∧ (es.foldl Player.step {}).button (c - 50) ≠ v)) := hb
          simp only [Player.step, Player.message, if_neg h32]
          split
          · rfl
          · rw [if_neg (by omega), if_neg (by omega)]
            split
            · rename_i hc
              have : (es.foldl Player.step {}).button (c - 50) = v := by
                by_cases e : (es.foldl Player.step {}).button (c - 50) = v
                · exact e
                · exact absurd (.inr (.inr ⟨hc.1, hc.2, e⟩)) hb'
              simp [Player.press, this]
            · rfl
        · exact (hr trivial).elim
        · simp only [Player.step]
          unfold Player.message
          split
          · simp at hm
          · simp at hm
          · rfl
  have key : ∀ es : List Ev, (∀ e ∈ es, Proper e) → (∀ e ∈ es, ¬ Remote e) →
      ((Panel.init (initial now date)).run es.reverse).input = (es.reverse.foldl Player.step {}).rig := by
    intro es
    induction es with
    | nil => exact fun _ _ => C210.id_at now date [] (by simp)
    | cons e es ih =>
        intro proper noRemote
        rw [List.reverse_cons]
        exact step es.reverse e (fun x hx => proper x (by simp [List.mem_reverse.1 hx])) (proper e (by simp)) (noRemote e (by simp))
          (ih (fun x hx => proper x (by simp [hx])) (fun x hx => noRemote x (by simp [hx])))
  have := key history.reverse (fun e he => proper e (List.mem_reverse.1 he)) (fun e he => noRemote e (List.mem_reverse.1 he))
  rwa [List.reverse_reverse] at this

/-- C210. Whenever a rig is chosen by hand, the input contains the active rig afterwards, whatever has happened before. -/
theorem C210_chosen (now : Int) (date : List Nat) (history : List Ev) (proper : ∀ e ∈ history, Proper e) (e : Ev) (properLast : Proper e)
    (hand : ByHand (history.foldl Player.step {}) e) :
    ((Panel.init (initial now date)).run (history ++ [e])).input = ((Panel.init (initial now date)).run (history ++ [e])).device.rigId := by
  rw [(C210.input_step now date history proper e properLast).1 hand, C210.id_at]
  intro x hx
  rcases List.mem_append.1 hx with hx | hx
  · exact proper x hx
  · rw [List.mem_singleton.1 hx]; exact properLast

/-- C210. A number typed into the input becomes the active rig of the device and stays in the input. -/
theorem C210_typed (now : Int) (date : List Nat) (history : List Ev) (proper : ∀ e ∈ history, Proper e) (date' : List Nat) (n : Nat) :
    ((Panel.init (initial now date)).run (history ++ [.ui date' (.rig n)])).input = n ∧
    ((Panel.init (initial now date)).run (history ++ [.ui date' (.rig n)])).device.rigId = n := by
  have h := C210_chosen now date history proper (.ui date' (.rig n)) trivial trivial
  have h1 : ((Panel.init (initial now date)).run (history ++ [.ui date' (.rig n)])).input = n := by rw [C210.run_append]; rfl
  exact ⟨h1, by rw [← h, h1]⟩

/-- C210, the code (`VirtualKemperClientUI.js:247-255`): the input does not follow when another device tells the number of the rig, whatever has happened before. -/
theorem C210_remote_witness (now : Int) (date : List Nat) (history : List Ev) (proper : ∀ e ∈ history, Proper e) (e : Ev) (properLast : Proper e) (remote : Remote e) :
    ((Panel.init (initial now date)).run (history ++ [e])).input = ((Panel.init (initial now date)).run history).input := by
  refine (C210.input_step now date history proper e properLast).2 ?_
  unfold Remote at remote
  split at remote
  · rename_i t d m
    intro hb
    unfold ByHand at hb
    split at hb
    · rename_i x
      cases x
      omega
    · rename_i x; cases x
    · exact hb
  · intro hb
    unfold ByHand at hb
    split at hb
    · rename_i x; cases x
    · rename_i x; cases x
    · exact hb
  · exact remote.elim

/-- For example, rig 7 becomes active, but the input still contains 0. -/
theorem C210_stale_witness : ((Panel.init (initial 0 [])).run [.receive 0 [] [192, 7]]).input = 0 ∧ ((Panel.init (initial 0 [])).run [.receive 0 [] [192, 7]]).device.rigId = 7 := by
  decide +kernel

/-- Non-vacuity: a preselected bank, a rig button, a bank button, and a rig button again. -/
example : (∀ e ∈ [Ev.receive 0 [] [176, 47, 3], .receive 0 [] [176, 52, 1], .receive 0 [] [176, 48, 0], .receive 1 [] [176, 53, 1]], Proper e ∧ ¬ Remote e) ∧
    ((Panel.init (initial 0 [])).run [.receive 0 [] [176, 47, 3], .receive 0 [] [176, 52, 1], .receive 0 [] [176, 48, 0], .receive 1 [] [176, 53, 1]]).input = 23 := by
  refine ⟨?_, by decide +kernel⟩
  intro e he
  simp only [List.mem_cons, List.not_mem_nil, or_false] at he
  rcases he with rfl | rfl | rfl | rfl <;> exact ⟨.inl ⟨_, _, rfl, by omega, by omega⟩, fun h => h⟩

example : ByHand ([Ev.receive 0 [] [192, 7]].foldl Player.step {}) (.receive 0 [] [176, 51, 1]) ∧ Remote (.receive 0 [] [192, 7]) :=
  ⟨.inr (.inr ⟨by omega, by omega, by decide⟩), trivial⟩

end PySwitch.Props
