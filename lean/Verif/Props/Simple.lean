import Verif.Spec.Simple
import Verif.Props.Switch

/-!
Switches which send custom messages or keys, and fixed texts.
-/

namespace PySwitch.Props
open PySwitch.Simple PySwitch.Spec.Simple PySwitch.Label

namespace C108

theorem sample_pushed (r : Reading) : r.sample.pushed = !r.level := by
  cases h : r.level <;> simp [Reading.sample, Simple.pushed, h]

theorem out_push (acts : Nat → Action) (kb : Bool) (l : List Nat) :
    (l.map Switch.Eff.push).flatMap (out acts kb) = l.flatMap fun a => push kb (acts a) := by
  induction l with
  | nil => rfl
  | cons a l ih => simp [out, ih]

theorem out_release (acts : Nat → Action) (kb : Bool) (l : List Nat) :
    (l.map Switch.Eff.release).flatMap (out acts kb) = l.flatMap fun a => release (acts a) := by
  induction l with
  | nil => rfl
  | cons a l ih => simp [out, ih]

theorem all_enabled (r : Reading) (l : List Nat) : l.filter r.sample.enabled = l := by
  rw [List.filter_eq_self]; intro a _; rfl

/-- Whatever the actions are. -/
theorem outputs_edges (acts : Nat → Action) (c : Switch.Config) (hc : c.actionsHold = [])
    (holdTime : Int) (rs : List Reading) :
    outputs acts c holdTime rs =
      byEdge (fun r => c.actions.flatMap fun a => push r.keyboard (acts a))
        (c.actions.flatMap fun a => release (acts a)) true rs := by
  simp only [outputs]
  rw [C12_edges c hc holdTime _ (by intro s hs; obtain ⟨r, _, rfl⟩ := List.mem_map.1 hs; rfl)]
  have key : ∀ before : Bool,
      List.zipWith (fun r es => es.flatMap (out acts r.keyboard)) rs
        (Switch.Spec.edges c.actions (!before) (rs.map Reading.sample)) =
      byEdge (fun r => c.actions.flatMap fun a => push r.keyboard (acts a))
        (c.actions.flatMap fun a => release (acts a)) before rs := by
    induction rs with
    | nil => intro _; rfl
    | cons r rs ih =>
      intro before
      have := ih r.level
      simp only [List.map_cons, Switch.Spec.edges, List.zipWith_cons_cons, byEdge, sample_pushed,
        this, all_enabled]
      cases before <;> cases r.level <;> simp [out_push, out_release]
  exact key true

theorem push_customs (cs : List Custom) (kb : Bool) :
    (cs.flatMap fun c => push kb c.action) = cs.map fun c => Out.midi c.message := by
  induction cs with
  | nil => rfl
  | cons c cs ih => rw [List.flatMap_cons, ih]; rfl

theorem release_custom (c : Custom) : release c.action = messages [c.releaseBytes] := by
  simp only [Custom.action, Custom.releaseBytes, messages]
  rcases c.release with _ | _ | ⟨b, bs⟩ <;> simp [release]

theorem release_customs (cs : List Custom) :
    (cs.flatMap fun c => release c.action) = messages (cs.map Custom.releaseBytes) := by
  induction cs with
  | nil => rfl
  | cons c cs ih =>
    rw [List.flatMap_cons, ih, release_custom]
    simp only [messages, List.map_cons]
    rw [← List.map_append, ← List.filter_append]
    rfl

/-- The actions of a switch, numbered. -/
theorem range_flatMap {α β : Type} (cs : List α) (g : α → Action) (f : Action → List β) :
    (List.range cs.length).flatMap (fun a => f ((cs[a]?.map g).getD (.fixedText "" none none))) =
      cs.flatMap fun c => f (g c) := by
  have : (List.range cs.length).map
      (fun a => (cs[a]?.map g).getD (.fixedText "" none none)) = cs.map g := by
    apply List.ext_getElem <;> simp
    intro i h; simp [h]
  have h2 := congrArg (fun l => l.flatMap f) this
  simpa [List.flatMap_map] using h2

end C108

/-- **C108** A switch with custom messages: whenever it is pushed (the pin goes low), the messages
of all its actions are sent, byte for byte and in the order of the actions; whenever it is released,
their release messages are sent, as far as there are some; and nothing at any other time. This
holds for all messages and for every history of the pin. -/
theorem C108_messages (cs : List Custom) (holdTime : Int) (rs : List Reading) :
    outputs (fun a => (cs[a]?.map Custom.action).getD (.fixedText "" none none))
        { actions := List.range cs.length } holdTime rs =
      byEdge (fun _ => cs.map fun c => .midi c.message) (messages (cs.map Custom.releaseBytes))
        true rs := by
  rw [C108.outputs_edges _ _ rfl]
  congr 1
  · funext r
    exact (C108.range_flatMap cs Custom.action (push r.keyboard)).trans (C108.push_customs cs _)
  · exact (C108.range_flatMap cs Custom.action release).trans (C108.release_customs cs)

/-- A note on, and a note off which has no release message of its own. -/
example : outputs (fun a => (([⟨[144, 60, 100], some [128, 60, 0], "", ⟨0, 0, 0⟩, 1⟩,
      ⟨[192, 5], none, "", ⟨0, 0, 0⟩, 1⟩] : List Custom)[a]?.map Custom.action).getD
      (.fixedText "" none none)) { actions := [0, 1] } 600
      [⟨true, 0, true⟩, ⟨false, 10, true⟩, ⟨false, 20, true⟩, ⟨true, 30, true⟩] =
    [[], [.midi [144, 60, 100], .midi [192, 5]], [], [.midi [128, 60, 0]]] := by decide +kernel

/-- **C108** A switch with keyboard actions: whenever it is pushed, the keys of all its actions are
typed in their order if there is a host for the keyboard, otherwise none; nothing is typed at any
other time. This holds for all keys and every history of the pin and of the host. -/
theorem C108_keys (ks : List (List Nat)) (text : String) (color : Color) (b : Rat) (holdTime : Int)
    (rs : List Reading) :
    outputs (fun a => (ks[a]?.map fun k => .hidKeyboard k text color b).getD
          (.fixedText "" none none)) { actions := List.range ks.length } holdTime rs =
      byEdge (fun r => if r.keyboard then ks.flatten.map .key else []) [] true rs := by
  rw [C108.outputs_edges _ _ rfl]
  congr 1
  · funext r
    refine (C108.range_flatMap ks (fun k => .hidKeyboard k text color b) (push r.keyboard)).trans ?_
    simp only [push]
    cases r.keyboard <;> simp [List.map_flatten, List.flatMap_def]
  · refine (C108.range_flatMap ks (fun k => .hidKeyboard k text color b) release).trans ?_
    simp [release]

/-- Page turner: two keys; the second press finds no host. -/
example : outputs (fun a => (([[75, 76]] : List (List Nat))[a]?.map fun k =>
      .hidKeyboard k "" ⟨0, 0, 0⟩ 1).getD (.fixedText "" none none)) { actions := [0] } 600
      [⟨false, 0, true⟩, ⟨true, 10, true⟩, ⟨false, 20, false⟩] =
    [[.key 75, .key 76], [], []] := by decide +kernel

namespace C108

theorem out_click (acts : Nat → Action) (kb : Bool) (l : List Nat) (s : Switch.Sample)
    (he : l.filter s.enabled = l) :
    (Switch.Spec.click l s).flatMap (out acts kb) =
      l.flatMap fun a => push kb (acts a) ++ release (acts a) := by
  simp only [Switch.Spec.click, he]
  clear he
  induction l with
  | nil => rfl
  | cons a l ih => simp [out, ih]

theorem zip_flatten (acts : Nat → Action) (hk : ∀ kb e, out acts kb e = out acts true e) :
    ∀ (rs : List Reading) (es : List (List Switch.Eff)), rs.length = es.length →
    (List.zipWith (fun r es => es.flatMap (out acts r.keyboard)) rs es).flatten =
      es.flatten.flatMap (out acts true)
  | [], [], _ => rfl
  | r :: rs, e :: es, h => by
    have ih := zip_flatten acts hk rs es (by simpa using h)
    have : out acts r.keyboard = out acts true := funext (hk r.keyboard)
    simp [ih, this]

theorem run_length (c : Switch.Config) : ∀ (ss : List Switch.Sample) (st : Switch.State),
    (Switch.run c st ss).1.length = ss.length
  | [], _ => rfl
  | s :: ss, st => by simp [Switch.run, run_length c ss]

end C108

/-- **C108** A switch with a custom message and another one for holding it, after any time of not
being pushed: a press which is seen to last longer than the hold time sends just the message for
holding (and its release message), any other press just the normal one, when the switch is
released. -/
theorem C108_hold (normal hold : Custom) (holdTime : Int) (idle held : List Reading)
    (first last : Reading) (hidle : ∀ r ∈ idle, r.level = true) (hfirst : first.level = false)
    (hheld : ∀ r ∈ held, r.level = false) (hlast : last.level = true) :
    (outputs (fun a => if a = 0 then normal.action else hold.action)
        { actions := [0], actionsHold := [1] } holdTime
        (idle ++ first :: (held ++ [last]))).flatten =
      if ∃ r ∈ held ++ [last], r.now - first.now > holdTime
      then .midi hold.message :: messages [hold.releaseBytes]
      else .midi normal.message :: messages [normal.releaseBytes] := by
  have hk : ∀ kb e, out (fun a => if a = 0 then normal.action else hold.action) kb e =
      out (fun a => if a = 0 then normal.action else hold.action) true e := by
    intro kb e
    cases e with
    | push a => simp only [out]; split <;> rfl
    | _ => rfl
  simp only [outputs]
  rw [C108.zip_flatten _ hk _ _ (by simp [C108.run_length])]
  let p : Switch.Spec.Press := ⟨first.sample, held.map Reading.sample, last.sample⟩
  have hsamples : (idle ++ first :: (held ++ [last])).map Reading.sample =
      (idle.map (fun r : Reading => Switch.Spec.Block.idle r.sample) ++
        [Switch.Spec.Block.press p]).flatMap Switch.Spec.Block.samples := by
    have : ∀ l : List Reading, (l.map fun r => Switch.Spec.Block.idle r.sample).flatMap
        Switch.Spec.Block.samples = l.map Reading.sample := by
      intro l
      induction l with
      | nil => rfl
      | cons r l ih => simp [Switch.Spec.Block.samples] at ih ⊢; exact ih
    rw [List.flatMap_append, this]
    simp [Switch.Spec.Block.samples, Switch.Spec.Press.samples, p]
  have hok : ∀ b ∈ idle.map (fun r : Reading => Switch.Spec.Block.idle r.sample) ++
      [Switch.Spec.Block.press p], b.Ok := by
    intro b hb
    simp only [List.mem_append, List.mem_map, List.mem_singleton] at hb
    rcases hb with ⟨r, hr, rfl⟩ | rfl
    · simp [Switch.Spec.Block.Ok, C108.sample_pushed, hidle r hr]
    · refine ⟨by simp [p, C108.sample_pushed, hfirst], ?_, by simp [p, C108.sample_pushed, hlast], ?_⟩
      · intro s hs
        obtain ⟨r, hr, rfl⟩ := List.mem_map.1 hs
        simp [C108.sample_pushed, hheld r hr]
      · intro s hs
        simp only [Switch.Spec.Press.samples, p, List.mem_cons, List.mem_append, List.mem_map,
          List.not_mem_nil, or_false] at hs
        rcases hs with rfl | ⟨r, _, rfl⟩ | rfl <;> rfl
  rw [hsamples, C13_short_or_long _ (by simp) rfl holdTime _ hok, List.flatMap_append]
  have hidle0 : (idle.map (fun r => Switch.Spec.Block.idle r.sample)).flatMap
      (expectedNoRepeat { actions := [0], actionsHold := [1] } holdTime) =
      idle.map fun _ => [] := by
    clear hidle hsamples hok
    induction idle with
    | nil => rfl
    | cons r l ih => simp [expectedNoRepeat] at ih ⊢; exact ih
  have hflat : (idle.map fun _ => ([] : List Switch.Eff)).flatten = [] := by simp
  rw [hidle0, List.flatten_append, hflat, List.nil_append]
  simp only [List.flatMap_cons, List.flatMap_nil, List.append_nil, expectedNoRepeat,
    List.flatten_cons, List.nil_append]
  rw [C13_exclusive]
  have hfind : ∀ l : List Reading, ((l.map Reading.sample).find?
      (fun s => s.now - first.now > holdTime)).isSome = decide (∃ r ∈ l, r.now - first.now > holdTime) := by
    intro l
    rw [Bool.eq_iff_iff, decide_eq_true_iff]
    simp only [List.find?_isSome, List.mem_map, decide_eq_true_iff]
    constructor
    · rintro ⟨s, ⟨r, hr, rfl⟩, h⟩; exact ⟨r, hr, h⟩
    · rintro ⟨r, hr, h⟩; exact ⟨_, ⟨r, hr, rfl⟩, h⟩
  have hl : p.held ++ [p.last] = (held ++ [last]).map Reading.sample := by simp [p]
  have h := hfind (held ++ [last])
  simp only [hl]
  have hf : ∀ (a : Nat) (s : Switch.Sample) (r : Reading), s = r.sample → [a].filter s.enabled = [a] := by
    intro a s r hs; subst hs; exact C108.all_enabled r [a]
  cases hc : ((held ++ [last]).map Reading.sample).find? (fun s => s.now - first.now > holdTime) with
  | none =>
    rw [hc] at h
    have hn : ¬∃ r ∈ held ++ [last], r.now - first.now > holdTime := by
      simpa using h
    rw [if_neg hn]
    have hc' : ((held ++ [last]).map Reading.sample).find?
        (fun s => decide (s.now - p.first.now > holdTime)) = none := hc
    simp only [hc']
    rw [C108.out_click _ _ _ _ (hf 0 p.last last rfl)]
    simp [Custom.action, push]
    exact C108.release_custom normal
  | some s =>
    rw [hc] at h
    have hy : ∃ r ∈ held ++ [last], r.now - first.now > holdTime := by
      simpa using h
    rw [if_pos hy]
    have hc' : ((held ++ [last]).map Reading.sample).find?
        (fun s => decide (s.now - p.first.now > holdTime)) = some s := hc
    obtain ⟨r, _, hr⟩ := List.mem_map.1 (List.mem_of_find?_eq_some hc)
    simp only [hc']
    rw [C108.out_click _ _ _ _ (hf 1 s r hr.symm)]
    simp [Custom.action, push]
    exact C108.release_custom hold

/-- A long press. -/
example : (outputs (fun a => if a = 0 then (⟨[192, 1], none, "", ⟨0, 0, 0⟩, 1⟩ : Custom).action
      else (⟨[192, 2], some [192, 3], "", ⟨0, 0, 0⟩, 1⟩ : Custom).action)
      { actions := [0], actionsHold := [1] } 600
      ([⟨true, 0, true⟩] ++ ⟨false, 10, true⟩ :: ([⟨false, 611, true⟩] ++ [⟨true, 700, true⟩]))).flatten =
    [.midi [192, 2], .midi [192, 3]] := by decide +kernel

/-! ### Fixed texts -/

namespace C109

/-- What is drawn is what the label holds. -/
def Fits (l : LabelState) : Prop := l.drawn = some ⟨l.text, l.textColor, l.backColor⟩

theorem wrap_none (t : String) : wrapText none t = t := by
  simp only [wrapText]; split
  · next h => exact h.symm
  · rfl

theorem fits_textColor {l : LabelState} (h : Fits l) (c) : Fits (l.setTextColor c) ∧
    (l.setTextColor c).text = l.text ∧ (l.setTextColor c).backColor = l.backColor := by
  simp only [Fits, LabelState.setTextColor] at *
  split <;> simp [h]

theorem fits_text {l : LabelState} (h : Fits l) (t low) : Fits (l.setText none t low) ∧
    (l.setText none t low).backColor = l.backColor ∧
    (low = false → (l.setText none t low).text = t) := by
  simp only [Fits, LabelState.setText, wrap_none] at *
  cases low <;> simp <;> split <;> simp_all

theorem fits_back {l : LabelState} (h : Fits l) {c0} (hc : l.backColor = some c0) (c) :
    ∃ l', l.setBackColor (some c) = some l' ∧ Fits l' ∧ l'.text = l.text ∧ l'.backColor = some c := by
  simp only [LabelState.setBackColor, hc]
  by_cases e : c0 = c
  · subst e; exact ⟨l, by simp, h, rfl, hc⟩
  · refine ⟨_, by simp [e]; rfl, ?_⟩
    have := fits_textColor (l := { l with backColor := some c, drawn := l.drawn.map (fun (d : Drawn) => { d with back := some c }) })
      (by simp only [Fits] at *; simp [h]) l.initialTextColor
    exact ⟨this.1, this.2.1, this.2.2⟩

theorem init_back (l : LabelState) (low : Bool) : (l.init none low).backColor = l.backColor := by
  have h1 : ∀ (m : LabelState) c, (m.setTextColor c).backColor = m.backColor := by
    intro m c; simp only [LabelState.setTextColor]; split <;> rfl
  have h2 : ∀ (m : LabelState) t, (m.setText none t low).backColor = m.backColor := by
    intro m t; simp only [LabelState.setText]; split <;> split <;> rfl
  simp only [LabelState.init, h2, h1]

theorem fits_run (es : List LabelEvent) (l : LabelState) (h : Fits l) (hb : ∃ c, l.backColor = some c) :
    Fits (l.run none es) ∧ ∃ c, (l.run none es).backColor = some c := by
  induction es generalizing l with
  | nil => exact ⟨h, hb⟩
  | cons e es ih =>
    obtain ⟨c0, hc⟩ := hb
    apply ih
    · cases e with
      | init low =>
        simp only [LabelState.step, LabelState.init, Fits, wrap_none]
      | text t low => exact (fits_text h t low).1
      | textColor c => exact (fits_textColor h c).1
      | backColor c =>
        cases c with
        | none => simpa [LabelState.step, LabelState.setBackColor, hc] using h
        | some c =>
          obtain ⟨l', h1, h2, _⟩ := fits_back h hc c
          simpa [LabelState.step, h1] using h2
    · cases e with
      | init low =>
        exact ⟨c0, (init_back l low).trans hc⟩
      | text t low => exact ⟨c0, (fits_text h t low).2.1.trans hc⟩
      | textColor c => exact ⟨c0, (fits_textColor h c).2.2.trans hc⟩
      | backColor c =>
        cases c with
        | none => exact ⟨c0, by simp [LabelState.step, LabelState.setBackColor, hc]⟩
        | some c =>
          obtain ⟨l', h1, _, _, h4⟩ := fits_back h hc c
          exact ⟨c, by simpa [LabelState.step, h1] using h4⟩

end C109

/-- **C109** A fixed text is shown on a label whatever has been done with the label before, and its
background colour is the one configured, if there is one. For all labels with a background which do
not wrap their text, if memory is not low. Missing: the colour of the text. -/
theorem C109_text_partial (text t0 : String) (back color tc0 : Option Color) (c0 : Color) (low : Bool)
    (es : List LabelEvent) :
    let l := ((LabelState.create t0 tc0 (some c0)).init none low).run none es
    ∃ (l' : LabelState) (d : Drawn),
      updateLabel none false (.fixedText text back color) l = some l' ∧ l'.drawn = some d ∧
      d.text = text ∧ d.back = back.or l.backColor := by
  intro l
  have hl : C109.Fits l ∧ ∃ c, l.backColor = some c :=
    C109.fits_run es _ (by simp only [C109.Fits, LabelState.init, C109.wrap_none]) ⟨c0, C109.init_back _ low⟩
  obtain ⟨hf, c, hc⟩ := hl
  have ht := C109.fits_text hf text false
  cases back with
  | none => exact ⟨_, _, rfl, ht.1, ht.2.2 rfl, by simp [ht.2.1]⟩
  | some b =>
    obtain ⟨l', h1, h2, h3, h4⟩ := C109.fits_back ht.1 (ht.2.1.trans hc) b
    exact ⟨l', _, h1, h2, h3.trans (ht.2.2 rfl), by simp [h4]⟩

/-- **C109** The actions for messages and keys show their text in front of their colour, and light
the LEDs in that colour with the brightness configured. -/
theorem C109_messages (codes message : List Nat) (messageRelease : Option (List Nat)) (a : Action)
    (text t0 : String) (color c0 : Color) (brightness : Rat) (tc0 : Option Color) (low : Bool)
    (es : List LabelEvent)
    (ha : a = .customMessage message messageRelease text color brightness ∨
      a = .hidKeyboard codes text color brightness) :
    leds a = some (color, brightness) ∧
    ∃ (l' : LabelState) (d : Drawn),
      updateLabel none false a (((LabelState.create t0 tc0 (some c0)).init none low).run none es) = some l' ∧
      l'.drawn = some d ∧ d.text = text ∧ d.back = some color := by
  obtain ⟨l', d, h1, h2, h3, h4⟩ := C109_text_partial text t0 (some color) none tc0 c0 low es
  refine ⟨by rcases ha with rfl | rfl <;> rfl, l', d, ?_, h2, h3, by simpa using h4⟩
  rcases ha with rfl | rfl <;> exact h1

example : ((updateLabel none false (.fixedText "Hello" (some white) none)
    (((LabelState.create "old" none (some black)).init none true).run none
      [.backColor (some ⟨1, 2, 3⟩), .backColor none, .text "other" false])).bind (·.drawn)) =
    some ⟨"Hello", some black, some white⟩ := by decide +kernel

/-- **C109** The text is not drawn in the colour the user has asked for: white on black instead of
red. -/
theorem C109_wrong_color :
    ∃ l l' : LabelState, l = (LabelState.create "" none (some black)).init none false ∧
      updateLabel none false (.fixedText "Hello" none (some ⟨255, 0, 0⟩)) l = some l' ∧
      l'.drawn = some ⟨"Hello", some white, some black⟩ := by
  refine ⟨_, _, rfl, rfl, ?_⟩
  decide +kernel

end PySwitch.Props
