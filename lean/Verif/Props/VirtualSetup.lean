import Verif.Lemmas.VirtualSetup
import Verif.Props.Shipped
/-
C133: rigs and banks of the virtual Kemper.
-/
namespace PySwitch.Props
open PySwitch PySwitch.Wire PySwitch.Kemper.Virtual PySwitch.Kemper.Setup PySwitch.Kemper.Setup.Spec

/-- C133. After every history of complete messages, updates and uses of the user interface, the active rig of the virtual Kemper is
the one which has been selected. -/
theorem C133_rig (now : Int) (date : List Nat) (es : List Ev) (he : ∀ e ∈ es, Proper e) :
    ((initial now date).run es).1.rigId = (es.foldl Player.step {}).rig := by
  have h := view_run (view_initial now date) es he
  exact h.rig.id h.shape

namespace C133

theorem fold_received (es : List Ev) (p : Player) (hn : ∀ e ∈ es, NoUi e) :
    es.foldl Player.step p = (received es).foldl Player.message p := by
  induction es generalizing p with
  | nil => rfl
  | cons e es ih =>
    have ih := fun p => ih p fun x hx => hn x (by simp [hx])
    cases e with
    | receive now date m => exact ih _
    | update now => exact ih _
    | tuner => exact ih _
    | ui date u => exact (hn _ (List.mem_cons_self ..)).elim

theorem proper_received (es : List Ev) (hn : ∀ e ∈ es, NoUi e) (hm : ∀ m ∈ received es, Midi m) : ∀ e ∈ es, Proper e := by
  induction es with
  | nil => simp
  | cons e es ih =>
    intro x hx
    have ih := ih (fun x hx => hn x (by simp [hx]))
    cases e with
    | receive now date m =>
      have ih := ih fun m hm' => hm m (by simp [received, hm'])
      rcases List.mem_cons.1 hx with rfl | hx
      · exact hm m (by simp [received])
      · exact ih x hx
    | update now =>
      have ih := ih fun m hm' => hm m (by simpa [received] using hm')
      rcases List.mem_cons.1 hx with rfl | hx
      · trivial
      · exact ih x hx
    | tuner =>
      have ih := ih fun m hm' => hm m (by simpa [received] using hm')
      rcases List.mem_cons.1 hx with rfl | hx
      · trivial
      · exact ih x hx
    | ui date u => exact (hn _ (List.mem_cons_self ..)).elim

/-- Nothing is preselected and the button is released. -/
def Free (p : Player) (s : Nat) : Prop := p.preselected = none ∧ p.button s = 0

theorem use_step {k : Nat} (hk : 5 ≤ k ∧ k ≤ 9) {p : Player} (hp : Free p (k - 5)) (u : Shipped.Spec.Use) :
    Free (((Shipped.Spec.rigUse k u).map (toBytes 0)).foldl Player.message p) (k - 5) ∧
    (((Shipped.Spec.rigUse k u).map (toBytes 0)).foldl Player.message p).rig = afterUse k p.rig u := by
  obtain ⟨h1, h2⟩ := hp
  have hrig : Free (((Shipped.Spec.rig (k - 5)).map (toBytes 0)).foldl Player.message p) (k - 5) ∧
      (((Shipped.Spec.rig (k - 5)).map (toBytes 0)).foldl Player.message p).rig = p.rig / 5 * 5 + (k - 5) := by
    obtain ⟨s, rfl⟩ : ∃ s, k = 5 + s := ⟨k - 5, by omega⟩
    rw [Nat.add_sub_cancel_left] at h2 ⊢
    have e1 : ∀ v, toBytes 0 (.cc (50 + s) v none) = [176, 50 + s, v] := fun _ => rfl
    have e2 : ∀ (q : Player) (v : Nat), q.message [176, 50 + s, v] = q.press s v := by
      intro q v
      simp only [Player.message]
      rw [if_neg (by omega), if_neg (by omega), if_neg (by omega), if_neg (by omega), if_pos (by omega), Nat.add_sub_cancel_left]
    simp only [Shipped.Spec.rig, Shipped.Spec.cc, List.map_cons, List.map_nil, e1, List.foldl_cons, List.foldl_nil, e2]
    simp [Player.press, h1, h2, Free]
    omega
  have hprev : (Shipped.Spec.previousBank.map (toBytes 0)).foldl Player.message p = { p with rig := (p.rig + 620) % 625 } := by
    have e : Shipped.Spec.previousBank.map (toBytes 0) = [[176, 49, 0]] := rfl
    rw [e, List.foldl_cons, List.foldl_nil]
    simp [Player.message]
  have hnext : (Shipped.Spec.nextBank.map (toBytes 0)).foldl Player.message p = { p with rig := (p.rig + 5) % 625 } := by
    have e : Shipped.Spec.nextBank.map (toBytes 0) = [[176, 48, 0]] := rfl
    rw [e, List.foldl_cons, List.foldl_nil]
    simp [Player.message]
  cases u with
  | idle now => exact ⟨⟨h1, h2⟩, rfl⟩
  | press t0 down t1 =>
    simp only [Shipped.Spec.rigUse, afterUse]
    split
    · rw [hprev]; exact ⟨⟨h1, h2⟩, rfl⟩
    · split
      · rw [hnext]; exact ⟨⟨h1, h2⟩, rfl⟩
      · exact hrig

theorem uses_fold {k : Nat} (hk : 5 ≤ k ∧ k ≤ 9) (uses : List Shipped.Spec.Use) (p : Player) (hp : Free p (k - 5)) :
    (((uses.flatMap (Shipped.Spec.rigUse k)).map (toBytes 0)).foldl Player.message p).rig = uses.foldl (afterUse k) p.rig := by
  induction uses generalizing p with
  | nil => rfl
  | cons u uses ih =>
    obtain ⟨a, b⟩ := use_step hk hp u
    rw [List.flatMap_cons, List.map_append, List.foldl_append, ih _ a, b]
    rfl

theorem uses_midi {k : Nat} (hk : 5 ≤ k ∧ k ≤ 9) (uses : List Shipped.Spec.Use) :
    ∀ m ∈ (uses.flatMap (Shipped.Spec.rigUse k)).map (toBytes 0), Midi m := by
  intro m hm
  simp only [List.mem_map, List.mem_flatMap] at hm
  obtain ⟨msg, ⟨u, -, hu⟩, rfl⟩ := hm
  have hc : ∀ c v, c < 128 → v < 128 → Midi (toBytes 0 (.cc c v none)) := fun c v h1 h2 => .inl ⟨c, v, rfl, h1, h2⟩
  cases u with
  | idle now => simp [Shipped.Spec.rigUse] at hu
  | press t0 down t1 =>
    simp only [Shipped.Spec.rigUse] at hu
    split at hu
    · simp only [Shipped.Spec.previousBank, Shipped.Spec.cc, List.mem_singleton] at hu
      subst hu
      exact hc _ _ (by decide) (by decide)
    · split at hu
      · simp only [Shipped.Spec.nextBank, Shipped.Spec.cc, List.mem_singleton] at hu
        subst hu
        exact hc _ _ (by decide) (by decide)
      · simp only [Shipped.Spec.rig, Shipped.Spec.cc, List.mem_cons, List.not_mem_nil, or_false] at hu
        rcases hu with rfl | rfl
        · exact hc _ _ (by omega) (by decide)
        · exact hc _ _ (by omega) (by decide)

end C133

/-- C133. The shipped configuration and the virtual Kemper together: when one of the switches A, B, C, D and DOWN is used any number of times,
in any way, without the tuner, and the virtual Kemper, after any history, gets what PySwitch writes because of that (with updates in
between), then its active rig is the one of the switch in the bank which is reached with the long presses. Before that, no bank is
preselected and the button of the rig is released. -/
theorem C133_uses (now : Int) (date : List Nat) (before es : List Ev) (hb : ∀ e ∈ before, Proper e) (hn : ∀ e ∈ es, NoUi e)
    (hist used : List Shipped.Event) (k : Nat) (hk : 5 ≤ k ∧ k ≤ 9) (uses : List Shipped.Spec.Use)
    (hfree : (before.foldl Player.step {}).preselected = none ∧ (before.foldl Player.step {}).button (k - 5) = 0) :
    let st := (Shipped.run Shipped.initial hist).2
    Shipped.Spec.AtRest k st → Shipped.Spec.TunerIs false st used → Shipped.Spec.seen k used = uses.flatMap Shipped.Spec.Use.seen →
    received es = (Shipped.Spec.writtenBy k st used).map (toBytes 0) →
    ((initial now date).run (before ++ es)).1.rigId = uses.foldl (afterUse k) ((initial now date).run before).1.rigId := by
  intro st h1 h2 h3 h4
  rw [C131_rig hist used k hk uses h1 h2 h3] at h4
  have hp : ∀ e ∈ es, Proper e := C133.proper_received es hn (by rw [h4]; exact C133.uses_midi hk uses)
  rw [C133_rig now date _ (by intro e he; rcases List.mem_append.1 he with h | h; exact hb e h; exact hp e h),
    C133_rig now date before hb, List.foldl_append, C133.fold_received es _ hn, h4]
  exact C133.uses_fold hk uses _ hfree

/-- C133. Whenever the rig changes by a button, a bank button or the user interface, the name the device reports is that of
the rig. -/
theorem C133_name_partial (now : Int) (date : List Nat) (es : List Ev) (e : Ev) (he : ∀ x ∈ es, Proper x) (hp : Proper e) (hb : ByButton e) :
    let d := ((initial now date).run es).1
    (d.step e).1.rigId ≠ d.rigId → reportedName (d.step e).1 = some (text (rigName (d.step e).1.rigId)) := by
  intro d hne
  have h : View d (es.foldl Player.step {}) := view_run (view_initial now date) es he
  obtain ⟨h1, h2⟩ := any_step h hp
  have e1 : d.rigId = (es.foldl Player.step {}).rig := h.rig.id h.shape
  have e2 := h1.rig.id h1.shape
  rw [e1, e2] at hne
  have hv := (h2 hb).2 hne
  obtain ⟨-, -, q, hq, -, -, hf⟩ := h1.shape.sent (key := .nrpn [0, 1]) (i := 17) (by decide)
  rw [e2, reportedName, hf]
  simpa [val, hq] using hv

/-- C133. After any history, PySwitch asks for all values, and the connection stays. As long as rigs are chosen with the
buttons and at the device, PySwitch knows the active rig from what it has got from the device. -/
theorem C133_reported_partial (now : Int) (date : List Nat) (before : List Ev) (t : Int) (day ask : List Nat) (es : List Ev)
    (hb : ∀ e ∈ before, Proper e ∧ ByButton e) (ha : Asks ask) (he : ∀ e ∈ es, Proper e ∧ ByButton e) :
    let d := (((initial now date).run before).1.receive t day ask)
    Stays d.1 es →
    ∃ m, heard Table.rigId.mapping (d.2 ++ (d.1.run es).2) = .ok m ∧ m.value = some (.num (d.1.run es).1.rigId) := by
  intro d hs
  have h := view_run (view_initial now date) before fun e he => (hb e he).1
  have hsm : Small (before.foldl Player.step {}) := small_run ⟨by decide, by simp⟩ before hb
  obtain ⟨hc, m1, g1, g2, g3⟩ := heard_asked h (by have := hsm.rig; omega) (m := Table.rigId.mapping) ⟨rfl, rfl, rfl⟩ ha t day
  have hmidi : Midi ask := by obtain ⟨a, b, c, rfl, -⟩ := ha; exact .inr (.inr rfl)
  have hview : View d.1 (before.foldl Player.step {}) := by
    have := (receive_step h t day hmidi).1
    have e : (before.foldl Player.step {}).message ask = before.foldl Player.step {} := by
      obtain ⟨a, b, c, rfl, -⟩ := ha
      rfl
    rw [e] at this
    exact this
  obtain ⟨m2, k1, k2⟩ := heard_run hview hc hsm g2 g3 es he hs
  refine ⟨m2, ?_, ?_⟩
  · rw [heard_append, g1]
    exact k1
  · have hv := view_run hview es fun e h => (he e h).1
    rw [hv.rig.id hv.shape]
    exact k2

namespace C133

theorem midi_cc (c v : Nat) : Midi [176, c, v] ↔ c < 128 ∧ v < 128 := by
  constructor
  · rintro (⟨c', v', h, h1, h2⟩ | ⟨v', h, -⟩ | h)
    · simp at h; omega
    · simp at h
    · simp at h
  · rintro ⟨h1, h2⟩; exact .inl ⟨c, v, rfl, h1, h2⟩

def ask : List Nat := [240, 0, 32, 51, 2, 127, 126, 0, 64, 2, 3, 10, 247]

/-- Rig 4 of the first bank, then two banks down and rig 2. -/
def es : List Ev := [.receive 5 [] [176, 53, 1], .receive 6 [] [176, 53, 0], .update 7, .receive 8 [] [176, 49, 0], .receive 9 [] [176, 49, 0],
  .receive 10 [] [176, 51, 1], .receive 11 [] [176, 51, 0]]

end C133

example : ((initial 0 []).run C133.es).1.rigId = 616 := by
  rw [C133_rig 0 [] C133.es (by simp [C133.es, Proper, C133.midi_cc])]
  rfl

example : reportedName (((initial 0 []).run (C133.es.take 5)).1.step (.receive 10 [] [176, 51, 1])).1 =
    some (text (rigName (((initial 0 []).run (C133.es.take 5)).1.step (.receive 10 [] [176, 51, 1])).1.rigId)) :=
  C133_name_partial 0 [] (C133.es.take 5) _ (by simp [C133.es, Proper, C133.midi_cc]) (.inl ⟨51, 1, rfl, by decide, by decide⟩) (by simp [ByButton])
    (by decide +kernel)

example : ∃ m, heard Table.rigId.mapping ((((initial 0 []).run C133.es).1.receive 20 [] C133.ask).2 ++
      ((((initial 0 []).run C133.es).1.receive 20 [] C133.ask).1.run C133.es).2) = .ok m ∧
    m.value = some (.num ((((initial 0 []).run C133.es).1.receive 20 [] C133.ask).1.run C133.es).1.rigId) :=
  C133_reported_partial 0 [] C133.es 20 [] C133.ask C133.es (by simp [C133.es, Proper, C133.midi_cc, ByButton])
    ⟨2, 3, 10, rfl, by decide, by decide, by decide⟩ (by simp [C133.es, Proper, C133.midi_cc, ByButton])
    (by refine ⟨⟨2, ?_⟩, ⟨2, ?_⟩, ⟨2, ?_⟩, ⟨2, ?_⟩, ⟨2, ?_⟩, ⟨2, ?_⟩, ⟨2, ?_⟩, trivial⟩ <;> decide +kernel)

/-- Switch DOWN is held (next bank), then pressed shortly. -/
example : ((initial 0 []).run (C133.es ++ [.receive 30 [] [176, 48, 0], .update 31, .receive 32 [] [176, 54, 1], .receive 33 [] [176, 54, 0]])).1.rigId = 624 := by
  rw [C133_uses 0 [] C133.es [.receive 30 [] [176, 48, 0], .update 31, .receive 32 [] [176, 54, 1], .receive 33 [] [176, 54, 0]]
    (by simp [C133.es, Proper, C133.midi_cc]) (by simp [NoUi]) []
    [.process 9 true 1000, .process 9 true 1700, .process 9 false 1800, .process 9 true 2000, .process 9 false 2100] 9 (by decide)
    [.press 1000 [1700] 1800, .press 2000 [] 2100] ⟨rfl, rfl⟩ ⟨_, rfl, rfl, rfl⟩ ⟨rfl, rfl, rfl, rfl, rfl, trivial⟩ rfl (by decide)]
  rw [C133_rig 0 [] C133.es (by simp [C133.es, Proper, C133.midi_cc])]
  decide +kernel

/-- C133, in disagreement with the property: the rig is selected by its number (program change). The device changes the rig, but the one PySwitch
knows is still the old one, as the answer has the lower part of the number only. -/
theorem C133_program_witness :
    let d := (initial 0 []).receive 1 [] C133.ask
    (d.1.run [.receive 2 [] [192, 5]]).1.rigId = 5 ∧
    (heard Table.rigId.mapping (d.2 ++ (d.1.run [.receive 2 [] [192, 5]]).2)).toOption.map (·.value) = some (some (.num 0)) := by
  decide +kernel

/-- C133, in disagreement with the property: with the rig selected by its number, the name is still the one of the rig before. -/
theorem C133_name_witness :
    ((initial 0 []).run [.receive 2 [] [192, 5]]).1.rigId = 5 ∧
    reportedName ((initial 0 []).run [.receive 2 [] [192, 5]]).1 = some (text (rigName 0)) ∧
    rigName 0 ≠ rigName 5 := by
  decide +kernel

/-- C133, in disagreement with the property: a switch is pressed in PySwitch, and the tuner is switched on before it is released (see C132),
so the release does not get to the device. After the rig has been changed in other ways, the next press of the switch does nothing. -/
theorem C133_swallowed_witness :
    ((initial 0 []).run [.receive 2 [] [176, 50, 1], .ui [] (.rig 7), .receive 3 [] [176, 50, 1]]).1.rigId = 7 := by
  decide +kernel

/-- The names of the rigs: five for each bank, the banks 5 and more begin again. -/
def C133.names : List String :=
  ["Blue Clean", "Blue Crunch", "Blue Overdrive", "Blue Lead", "Blue Acoustic",
   "Yellow Clean", "Yellow Crunch", "Yellow Overdrive", "Yellow Lead", "Yellow Acoustic",
   "Red Clean", "Red Crunch", "Red Overdrive", "Red Lead", "Red Acoustic",
   "Green Clean", "Green Crunch", "Green Overdrive", "Green Lead", "Green Acoustic",
   "Purple Clean", "Purple Crunch", "Purple Overdrive", "Purple Lead", "Purple Acoustic"]

/-- C133. The name which is meant in `C133_name` is the one of the table. -/
theorem C133_names (rig : Nat) : C133.names[rig % 25]? = some (rigName rig) := by
  have h : ∀ n : Fin 25, C133.names[n.val]? = some (rigName n.val) := by decide +kernel
  have e : rigName rig = rigName (rig % 25) := by
    unfold rigName
    rw [show rig % 25 / 5 % 5 = rig / 5 % 5 by omega, show rig % 25 % 5 = rig % 5 by omega]
  rw [e]
  exact h ⟨rig % 25, by omega⟩

example : rigName 37 = "Red Overdrive" := by decide +kernel

end PySwitch.Props
