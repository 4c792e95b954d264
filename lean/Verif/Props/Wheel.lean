import Verif.Lemmas.Wheel
import Verif.Model.Convert
/-
C96, C98: an encoder with preselection, its button and its display.
-/
namespace PySwitch.Props
open PySwitch.Wheel

/-- `content/inputs.py:25-36` with `clients/kemper/actions/amp.py:23-35`: the wheel of the default configuration. -/
def defaultWheel : Wheel.Config :=
  { enc := { sysex := true, stepWidth := some 40, preselect := true, hasPreview := true, resetMapping := true }
    pv := {}
    conv := Convert.gain }

theorem defaultWheel_ok : defaultWheel.Ok := ⟨rfl, rfl, rfl, by decide, by decide, rfl⟩

/-- C96. In every history, a value is sent exactly when a press of the button ends within the hold time (and the accept
button is enabled): the value previewed at that time, if any. Nothing else sends anything. -/
theorem C96_sent (c : Wheel.Config) (hc : c.Ok) (lab : Preview.State) (es : List Ev) (hf : ∀ e ∈ es, e.free = true)
    (w : World) (os : List (List Encoder.Eff)) (h : Wheel.run c (initial c lab) es = .ok (w, os)) :
    os.map Encoder.sets = ({} : Seen).expected c.holdTime es os :=
  (run_inv hc (inv_initial lab) hf h).2

/-- C96. While a value is previewed, the display shows it. -/
theorem C96_display (c : Wheel.Config) (hc : c.Ok) (hconv : ∀ v, c.conv v ≠ "") (lab : Preview.State) (es : List Ev)
    (hf : ∀ e ∈ es, e.free = true) (w : World) (os : List (List Encoder.Eff))
    (h : Wheel.run c (initial c lab) es = .ok (w, os)) (v : Int)
    (hv : (({} : Seen).after c.holdTime es os).value = some v) : w.lab.text = c.conv v :=
  ((run_inv hc (inv_initial lab) hf h).1.lab hconv v hv).2.1

/-- C96. What is sent is what the display shows: whenever an event sends a value, the display showed this value before. -/
theorem C96_sends_shown (c : Wheel.Config) (hc : c.Ok) (hconv : ∀ v, c.conv v ≠ "") (lab : Preview.State) (es : List Ev)
    (e : Ev) (hf : ∀ x ∈ es ++ [e], x.free = true) (w w' : World) (os : List (List Encoder.Eff)) (o : List Encoder.Eff)
    (h : Wheel.run c (initial c lab) es = .ok (w, os)) (h' : Wheel.step c w e = .ok (w', o)) (v : Int)
    (hv : v ∈ Encoder.sets o) : Encoder.sets o = [v] ∧ w.lab.text = c.conv v := by
  obtain ⟨hi, _⟩ := run_inv hc (inv_initial lab) (fun x hx => hf x (by simp [hx])) h
  obtain ⟨_, hs⟩ := step_inv hc hi (hf e (by simp)) h'
  rw [hs] at hv ⊢
  have : ∃ b, e = .button b := by
    cases e with
    | button b => exact ⟨b, rfl⟩
    | _ => simp [expected1] at hv
  obtain ⟨b, rfl⟩ := this
  simp only [expected1] at hv ⊢
  split at hv
  · rename_i hb
    cases hval : (({} : Seen).after c.holdTime es os).value with
    | none => rw [hval] at hv; simp at hv
    | some x =>
      rw [hval] at hv
      simp only [Option.toList_some, List.mem_singleton] at hv
      subst hv
      rw [if_pos hb]
      exact ⟨rfl, (hi.lab hconv v hval).2.1⟩
  · simp at hv

/-- C96. When a press gets longer than the hold time, a previewed value is given up: nothing is sent, nothing is previewed
any more, and the display shows its normal text. -/
theorem C96_hold (c : Wheel.Config) (hc : c.Ok) (hcb : c.pv.callback = true) (lab : Preview.State) (es : List Ev)
    (b : Switch.Sample) (hf : ∀ x ∈ es ++ [.button b], x.free = true) (w : World) (os : List (List Encoder.Eff))
    (h : Wheel.run c (initial c lab) es = .ok (w, os))
    (hl : (({} : Seen).after c.holdTime es os).long c.holdTime (.button b) = true) (hen : b.enabled 1 = true) :
    ∃ w', Wheel.step c w (.button b) = .ok (w', [.previewReset true]) ∧ w'.lab.text = w'.lab.content ∧
      (({} : Seen).after c.holdTime (es ++ [.button b]) (os ++ [[.previewReset true]])).value = none := by
  obtain ⟨hi, _⟩ := run_inv hc (inv_initial lab) (fun x hx => hf x (by simp [hx])) h
  have hfb := hf (.button b) (by simp)
  have ho : b.override = none := by simpa [Ev.free] using hfb
  have hp := (switch_step hi.sw b ho []).2
  have hns : (({} : Seen).after c.holdTime es os).short c.holdTime (.button b) = false := by
    cases hx : (({} : Seen).after c.holdTime es os).short c.holdTime (.button b) with
    | false => rfl
    | true => rw [short_long _ _ _ hx] at hl; simp at hl
  have hcalls : expectedCalls c.holdTime (({} : Seen).after c.holdTime es os) b = [.cancel 0] := by
    simp [expectedCalls, hns, hl, hen]
  refine ⟨⟨{ w.enc with active := false, lastValue := w.enc.value }, (Switch.process switchConfig w.sw b).1,
    Preview.reset c.pv w.lab b.now true⟩, ?_, ?_, ?_⟩
  · simp only [Wheel.step]
    rw [hp, hcalls]
    simp only [calls, call, cancel_eq hc, List.append_nil]
    rfl
  · exact (Preview.reset_true_normal hcb w.lab b.now).text
  · have happ : ∀ (s : Seen) (es : List Ev) (os : List (List Encoder.Eff)) (e : Ev) (o), es.length = os.length →
        s.after c.holdTime (es ++ [e]) (os ++ [o]) = (s.after c.holdTime es os).next c.holdTime e o := by
      intro s es
      induction es generalizing s with
      | nil => intro os e o hlen; cases os with
        | nil => rfl
        | cons _ _ => simp at hlen
      | cons x es ih => intro os e o hlen; cases os with
        | nil => simp at hlen
        | cons y os =>
          simp only [List.cons_append, Seen.after]
          exact ih _ os e o (by simpa using hlen)
    have hlen : es.length = os.length := by
      have : ∀ (es : List Ev) (w w' : World) os, Wheel.run c w es = .ok (w', os) → es.length = os.length := by
        intro es
        induction es with
        | nil => intro w w' os h; simp only [Wheel.run, Except.ok.injEq, Prod.mk.injEq] at h; rw [← h.2]; rfl
        | cons e es ih =>
          intro w w' os h
          simp only [Wheel.run] at h
          split at h
          · simp at h
          · split at h
            · simp at h
            · rename_i hr
              simp only [Except.ok.injEq, Prod.mk.injEq] at h
              rw [← h.2]
              simp [ih _ _ _ hr]
      exact this _ _ _ _ h
    rw [happ _ _ _ _ _ hlen, next_value]
    rfl

/-- A press of the button at a time. -/
def exPress (t : Int) : Ev := .button { pushed := true, now := t }
def exRelease (t : Int) : Ev := .button { pushed := false, now := t }

/-- Turning, a short press (which sends 8079), turning again, a long press (which sends nothing). -/
def exWheel : List Ev :=
  [.device (some 8000), .turn 0 10, exPress 100, exPress 800, exRelease 900, .turn 1000 12, .update 1200, exPress 1300,
   .turn 1310 12, exRelease 1400, .turn 1500 15, exPress 2000, exPress 2700, exRelease 2800]

example : (∀ e ∈ exWheel, e.free = true) ∧ ((Wheel.run defaultWheel (initial defaultWheel { content := "Rig" }) exWheel).map
    (fun r => (r.1.lab.text, r.2.map Encoder.sets, r.1.enc.value)) : Except Encoder.Err _) =
      .ok ("Rig", [[], [], [], [], [], [], [], [], [], [8080], [], [], [], []], some 8080) := by
  constructor
  · simp [exWheel, Ev.free, exPress, exRelease]
  · decide +kernel

example : (Wheel.run defaultWheel (initial defaultWheel { content := "Rig" }) (exWheel.take 8)).map
    (fun r => r.1.lab.text) = .ok "Gain: 4.9" := by decide +kernel

/-! ### C98 -/

namespace C98

theorem calls_lastPos {c : Wheel.Config} {ks : List EncoderButton.Call} {enc enc' : Encoder.State} {es}
    (h : calls c enc ks = .ok (enc', es)) : enc'.lastPos = enc.lastPos := by
  induction ks generalizing enc es with
  | nil => simp only [calls, Except.ok.injEq, Prod.mk.injEq] at h; rw [← h.1]
  | cons k ks ih =>
    simp only [calls] at h
    split at h
    · simp at h
    · rename_i e1 es1 h1
      split at h
      · simp at h
      · rename_i e2 es2 h2
        simp only [Except.ok.injEq, Prod.mk.injEq] at h
        obtain ⟨rfl, rfl⟩ := h
        rw [ih h2]
        cases k with
        | cancel n => exact (Encoder.cancel_ok h1).2.2.2.2.1
        | accept n =>
          rcases Encoder.accept_ok h1 with ⟨rfl, _⟩ | ⟨v, _, _, _, _, h5, _⟩
          · rfl
          · exact h5

/-- The position known to the encoder. -/
theorem step_lastPos {c : Wheel.Config} (hc : c.Ok) {w w' : World} {e : Ev} {o} (h : Wheel.step c w e = .ok (w', o)) :
    (∀ now p, e = .turn now p → w'.enc.lastPos = pyInt (p * c.enc.step)) ∧
    ((∀ now p, e ≠ .turn now p) → w'.enc.lastPos = w.enc.lastPos) := by
  cases e with
  | turn now q =>
    refine ⟨?_, fun hx => absurd rfl (hx now q)⟩
    intro now' p hx
    obtain ⟨rfl, rfl⟩ := Ev.turn.inj hx
    simp only [Wheel.step] at h
    split at h
    · simp at h
    · rename_i hp
      simp only [Except.ok.injEq, Prod.mk.injEq] at h
      obtain ⟨rfl, _⟩ := h
      exact Encoder.process_lastPos hp
  | button b =>
    refine ⟨by simp, fun _ => ?_⟩
    simp only [Wheel.step] at h
    split at h
    · simp at h
    · rename_i hp
      simp only [Except.ok.injEq, Prod.mk.injEq] at h
      obtain ⟨rfl, _⟩ := h
      exact calls_lastPos hp
  | other now r =>
    refine ⟨by simp, fun _ => ?_⟩
    simp only [Wheel.step] at h
    split at h
    · rw [cancel_eq hc] at h
      simp only [Except.ok.injEq, Prod.mk.injEq] at h
      obtain ⟨rfl, _⟩ := h
      rfl
    · simp only [Except.ok.injEq, Prod.mk.injEq] at h
      obtain ⟨rfl, _⟩ := h
      rfl
  | device v | rig v | update now | content t =>
    refine ⟨by simp, fun _ => ?_⟩
    simp only [Wheel.step, Except.ok.injEq, Prod.mk.injEq] at h
    obtain ⟨rfl, _⟩ := h
    rfl

/-- The encoder rests at value `v` and position `p`. -/
structure Rests (c : Wheel.Config) (p v : Int) (enc : Encoder.State) : Prop where
  active : enc.active = false
  last : enc.lastValue = some v
  value : enc.value = some v
  pos : enc.lastPos = pyInt (p * c.enc.step)

theorem Rests.checkReset {c : Wheel.Config} (hc : c.Ok) {p v : Int} {enc : Encoder.State} (h : Rests c p v enc) :
    ∃ enc' es, Encoder.checkReset c.enc enc = .ok (enc', es) ∧ Rests c p v enc' ∧ (∀ x, previewed x es = none ∨ previewed x es = x) := by
  unfold Encoder.checkReset
  split
  · split
    · by_cases hb : enc.resetValue ≠ none ∧ enc.resetLast ≠ none
      · simp only [if_pos hb, cancel_eq hc]
        refine ⟨_, _, rfl, ⟨rfl, h.value, h.value, h.pos⟩, fun x => .inl rfl⟩
      · simp only [if_neg hb]
        exact ⟨_, _, rfl, ⟨h.active, h.last, h.value, h.pos⟩, fun x => .inr rfl⟩
    · exact ⟨_, _, rfl, h, fun x => .inr rfl⟩
  · exact ⟨_, _, rfl, h, fun x => .inr rfl⟩

/-- Turning from there. -/
theorem Rests.turn {c : Wheel.Config} (hc : c.Ok) {p v : Int} {enc : Encoder.State} (h : Rests c p v enc)
    (hp : pyInt (p * c.enc.step) ≠ -1) (hv : c.enc.min ≤ v ∧ v ≤ c.enc.max) (q : Int) :
    ∃ enc' es, Encoder.process c.enc enc q = .ok (enc', es) ∧
      previewed none es =
        (let n := Encoder.limit c.enc.min c.enc.max (v + (pyInt (q * c.enc.step) - pyInt (p * c.enc.step)))
         if n = v then none else some n) ∧
      (q = p → Rests c p v enc') := by
  obtain ⟨e1, es1, h1, hr, hx⟩ := h.checkReset hc
  have hx0 : previewed none es1 = none := by rcases hx none with h | h <;> exact h
  unfold Encoder.process
  simp only
  rw [if_neg (by rw [h.pos]; exact hp), h1]
  simp only
  by_cases hq : e1.lastPos = pyInt (q * c.enc.step)
  · rw [if_pos hq]
    refine ⟨e1, es1, rfl, ?_, fun _ => hr⟩
    rw [hx0]
    have : Encoder.limit c.enc.min c.enc.max (v + (pyInt (q * c.enc.step) - pyInt (p * c.enc.step))) = v := by
      rw [← hq, hr.pos]; unfold Encoder.limit; omega
    simp only [this, if_true]
  · rw [if_neg hq]
    have hg : Encoder.getValue c.enc e1 = .ok (some v) := by simp [Encoder.getValue, hc.scale, hr.value]
    unfold Encoder.turned
    rw [hg]
    simp only [hc.pre, hc.prev, if_true, hr.last, reduceCtorEq, if_false, hr.pos]
    rw [Encoder.clamp_eq hc.range]
    generalize Encoder.limit c.enc.min c.enc.max (v + (pyInt (q * c.enc.step) - pyInt (p * c.enc.step))) = n
    by_cases hn : n = v
    · subst hn
      simp only [ne_eq, not_true_eq_false, if_false, if_true]
      refine ⟨_, _, rfl, by rw [List.append_nil]; exact hx0, ?_⟩
      intro hqp
      exact absurd (by rw [hqp]; exact hr.pos) hq
    · have : (some v : Option Int) ≠ some n := by simp; exact fun h => hn h.symm
      simp only [this, ne_eq, not_false_eq_true, if_true, if_neg hn]
      refine ⟨_, _, rfl, ?_, ?_⟩
      · rw [previewed_append]; rfl
      · intro hqp
        exact absurd (by rw [hqp]; exact hr.pos) hq

end C98

/-- Events with the parameter and the position of the encoder staying the same. -/
def Still (p : Int) : Ev → Prop
  | .device _ => False
  | .turn _ q => q = p
  | _ => True

/-- The position of the encoder in the last `turn` of a history. -/
def lastPosition : List Ev → Option Int
  | [] => none
  | .turn _ p :: es => (lastPosition es).or (some p)
  | _ :: es => lastPosition es

namespace C98

theorem run_lastPos {c : Wheel.Config} (hc : c.Ok) {w w' : World} {es : List Ev} {os}
    (h : Wheel.run c w es = .ok (w', os)) (p : Int) (hp : lastPosition es = some p) :
    w'.enc.lastPos = pyInt (p * c.enc.step) := by
  have key : ∀ (es : List Ev) (w w' : World) os, Wheel.run c w es = .ok (w', os) →
      (∀ p, lastPosition es = some p → w'.enc.lastPos = pyInt (p * c.enc.step)) ∧
      (lastPosition es = none → w'.enc.lastPos = w.enc.lastPos) := by
    intro es
    induction es with
    | nil =>
      intro w w' os h
      simp only [Wheel.run, Except.ok.injEq, Prod.mk.injEq] at h
      rw [← h.1]; simp [lastPosition]
    | cons e es ih =>
      intro w w' os h
      simp only [Wheel.run] at h
      split at h
      · simp at h
      · rename_i w1 o hs
        split at h
        · simp at h
        · rename_i w2 os' hr
          simp only [Except.ok.injEq, Prod.mk.injEq] at h
          obtain ⟨rfl, _⟩ := h
          obtain ⟨i1, i2⟩ := ih _ _ _ hr
          obtain ⟨s1, s2⟩ := step_lastPos hc hs
          by_cases he : ∃ now q, e = .turn now q
          · obtain ⟨now, q, rfl⟩ := he
            have s1 := s1 now q rfl
            simp only [lastPosition]
            refine ⟨fun p hp => ?_, fun hp => by cases hx : lastPosition es <;> simp [hx] at hp⟩
            cases hx : lastPosition es with
            | none => rw [hx] at hp; simp at hp; subst hp; rw [i2 hx]; exact s1
            | some y => rw [hx] at hp; simp at hp; subst hp; exact i1 _ hx
          · have s2 := s2 (fun now p hx => he ⟨now, p, hx⟩)
            have hl : lastPosition (e :: es) = lastPosition es := by
              cases e with
              | turn now q => exact absurd ⟨now, q, rfl⟩ he
              | _ => rfl
            rw [hl]
            exact ⟨i1, fun hn => by rw [i2 hn, s2]⟩
  exact (key es w w' os h).1 p hp

/-- After the end of a preview, the encoder rests at the value of the parameter. -/
theorem reset_rests {c : Wheel.Config} (hc : c.Ok) {w w' : World} {s : Seen} {e : Ev} {o} (p : Int) (hi : Inv c w s)
    (hf : e.free = true) (h : Wheel.step c w e = .ok (w', o)) (hs : Still p e) (hpos : pyInt (p * c.enc.step) ≠ -1)
    (hl : w.enc.lastPos = pyInt (p * c.enc.step)) (i : Bool) (hr : .previewReset i ∈ o) (v : Int)
    (hv : w'.enc.value = some v) : Rests c p v w'.enc := by
  cases e with
  | device _ => simp [Still] at hs
  | turn now q =>
    simp only [Still] at hs
    subst hs
    simp only [Wheel.step] at h
    split at h
    · simp at h
    · rename_i enc es hp
      simp only [Except.ok.injEq, Prod.mk.injEq] at h
      obtain ⟨rfl, rfl⟩ := h
      obtain ⟨st₀, st₁, es₁, h0, h1, h2, hcase⟩ := Encoder.process_ok hp
      rw [if_neg (by rw [hl]; exact hpos)] at h0
      subst h0
      rcases hcase with ⟨hlast, hst, hes⟩ | ⟨hne, _⟩
      · subst hst hes
        simp only at hv ⊢
        unfold Encoder.checkReset at h1
        split at h1
        · split at h1
          · simp only at h1
            split at h1
            · simp at h1
            · rename_i r st1 es1 hx
              simp only [Except.ok.injEq, Prod.mk.injEq] at h1
              obtain ⟨rfl, rfl⟩ := h1
              split at hx
              · rw [cancel_eq hc] at hx
                simp only [Except.ok.injEq, Prod.mk.injEq] at hx
                obtain ⟨rfl, rfl⟩ := hx
                exact ⟨rfl, hv, hv, hl⟩
              · simp only [Except.ok.injEq, Prod.mk.injEq] at hx
                obtain ⟨rfl, rfl⟩ := hx
                simp at hr
          · simp only [Except.ok.injEq, Prod.mk.injEq] at h1
            obtain ⟨rfl, rfl⟩ := h1
            simp at hr
        · simp only [Except.ok.injEq, Prod.mk.injEq] at h1
          obtain ⟨rfl, rfl⟩ := h1
          simp at hr
      · exact absurd (by rw [h2, hl]) hne
  | button b =>
    simp only [Wheel.step] at h
    have ho : b.override = none := by simpa [Ev.free] using hf
    rw [(switch_step hi.sw b ho []).2] at h
    split at h
    · simp at h
    · rename_i enc es hcalls
      simp only [Except.ok.injEq, Prod.mk.injEq] at h
      obtain ⟨rfl, rfl⟩ := h
      simp only at hv ⊢
      unfold expectedCalls at hcalls
      by_cases hsx : (s.short c.holdTime (.button b) && b.enabled 0) = true
      · have hs' : s.short c.holdTime (.button b) = true := by
          simp only [Bool.and_eq_true] at hsx; exact hsx.1
        have hlg := short_long _ _ _ hs'
        obtain ⟨enc', es', ha, _, hinv, hnone, _, hsome, hnil⟩ := accept_eq hc w.enc s.value hi.enc
        rw [if_pos hsx, hlg] at hcalls
        simp only [Bool.false_and, Bool.false_eq_true, if_false, List.append_nil, calls, call, ha,
          Except.ok.injEq, Prod.mk.injEq] at hcalls
        obtain ⟨rfl, rfl⟩ := hcalls
        have hne : s.value ≠ none := by
          intro hx; rw [(hnil hx).1] at hr; simp at hr
        obtain ⟨h1, h2, h3⟩ := hsome hne
        refine ⟨?_, by rw [h3, ← h2]; exact hv, hv, ?_⟩
        · cases hact : enc'.active with
          | false => rfl
          | true =>
            obtain ⟨x, _, _, hx⟩ := hinv.1 hact
            rw [hnone] at hx; simp at hx
        · have : calls c w.enc [.accept 0] = .ok (enc', es') := by simp only [calls, call, ha, List.append_nil]
          rw [calls_lastPos this]; exact hl
      · rw [if_neg hsx] at hcalls
        split at hcalls
        · simp only [List.nil_append, calls, call, cancel_eq hc, List.append_nil, Except.ok.injEq,
            Prod.mk.injEq] at hcalls
          obtain ⟨rfl, rfl⟩ := hcalls
          exact ⟨rfl, hv, hv, hl⟩
        · simp only [List.nil_append, calls, Except.ok.injEq, Prod.mk.injEq] at hcalls
          obtain ⟨rfl, rfl⟩ := hcalls
          simp at hr
  | other now r =>
    simp only [Wheel.step] at h
    split at h
    · rw [cancel_eq hc] at h
      simp only [Except.ok.injEq, Prod.mk.injEq] at h
      obtain ⟨rfl, rfl⟩ := h
      exact ⟨rfl, hv, hv, hl⟩
    · simp only [Except.ok.injEq, Prod.mk.injEq] at h
      obtain ⟨rfl, rfl⟩ := h
      simp at hr
  | rig v | update now | content t =>
    simp only [Wheel.step, Except.ok.injEq, Prod.mk.injEq] at h
    obtain ⟨rfl, rfl⟩ := h
    simp at hr

/-- While resting, the encoder stays where it is. -/
theorem Rests.keep {c : Wheel.Config} (hc : c.Ok) {w w' : World} {s : Seen} {e : Ev} {o} {p v : Int} (hi : Inv c w s)
    (hf : e.free = true) (h : Wheel.step c w e = .ok (w', o)) (hs : Still p e) (hpos : pyInt (p * c.enc.step) ≠ -1)
    (hv : c.enc.min ≤ v ∧ v ≤ c.enc.max) (hr : Rests c p v w.enc) : Rests c p v w'.enc := by
  cases e with
  | device _ => simp [Still] at hs
  | turn now q =>
    simp only [Still] at hs
    subst hs
    obtain ⟨enc', es, h1, _, h3⟩ := hr.turn hc hpos hv q
    simp only [Wheel.step, h1, Except.ok.injEq, Prod.mk.injEq] at h
    obtain ⟨rfl, _⟩ := h
    exact h3 rfl
  | button b =>
    simp only [Wheel.step] at h
    have ho : b.override = none := by simpa [Ev.free] using hf
    rw [(switch_step hi.sw b ho []).2] at h
    split at h
    · simp at h
    · rename_i enc es hcalls
      simp only [Except.ok.injEq, Prod.mk.injEq] at h
      obtain ⟨rfl, rfl⟩ := h
      simp only
      unfold expectedCalls at hcalls
      by_cases hsx : (s.short c.holdTime (.button b) && b.enabled 0) = true
      · have hs' : s.short c.holdTime (.button b) = true := by
          simp only [Bool.and_eq_true] at hsx; exact hsx.1
        have hlg := short_long _ _ _ hs'
        obtain ⟨enc', es', ha, _, _, _, _, _, hnil⟩ := accept_eq hc w.enc s.value hi.enc
        rw [if_pos hsx, hlg] at hcalls
        simp only [Bool.false_and, Bool.false_eq_true, if_false, List.append_nil, calls, call, ha,
          Except.ok.injEq, Prod.mk.injEq] at hcalls
        obtain ⟨rfl, rfl⟩ := hcalls
        rw [(hnil (hi.enc.2 hr.active)).2]
        exact hr
      · rw [if_neg hsx] at hcalls
        split at hcalls
        · simp only [List.nil_append, calls, call, cancel_eq hc, List.append_nil, Except.ok.injEq,
            Prod.mk.injEq] at hcalls
          obtain ⟨rfl, rfl⟩ := hcalls
          exact ⟨rfl, hr.value, hr.value, hr.pos⟩
        · simp only [List.nil_append, calls, Except.ok.injEq, Prod.mk.injEq] at hcalls
          obtain ⟨rfl, rfl⟩ := hcalls
          exact hr
  | other now r =>
    simp only [Wheel.step] at h
    split at h
    · rw [cancel_eq hc] at h
      simp only [Except.ok.injEq, Prod.mk.injEq] at h
      obtain ⟨rfl, rfl⟩ := h
      exact ⟨rfl, hr.value, hr.value, hr.pos⟩
    · simp only [Except.ok.injEq, Prod.mk.injEq] at h
      obtain ⟨rfl, rfl⟩ := h
      exact hr
  | rig v | update now | content t =>
    simp only [Wheel.step, Except.ok.injEq, Prod.mk.injEq] at h
    obtain ⟨rfl, rfl⟩ := h
    exact ⟨hr.active, hr.last, hr.value, hr.pos⟩

theorem Rests.keeps {c : Wheel.Config} (hc : c.Ok) {w w' : World} {s : Seen} {es : List Ev} {os} {p v : Int}
    (hi : Inv c w s) (hf : ∀ e ∈ es, e.free = true) (h : Wheel.run c w es = .ok (w', os)) (hs : ∀ e ∈ es, Still p e)
    (hpos : pyInt (p * c.enc.step) ≠ -1) (hv : c.enc.min ≤ v ∧ v ≤ c.enc.max) (hr : Rests c p v w.enc) :
    Rests c p v w'.enc := by
  induction es generalizing w s os with
  | nil => simp only [Wheel.run, Except.ok.injEq, Prod.mk.injEq] at h; rw [← h.1]; exact hr
  | cons e es ih =>
    simp only [Wheel.run] at h
    split at h
    · simp at h
    · rename_i w1 o hs1
      split at h
      · simp at h
      · rename_i w2 os' hr1
        simp only [Except.ok.injEq, Prod.mk.injEq] at h
        obtain ⟨rfl, _⟩ := h
        exact ih (step_inv hc hi (hf e (by simp)) hs1).1 (fun e he => hf e (by simp [he])) hr1
          (fun e he => hs e (by simp [he])) (Rests.keep hc hi (hf e (by simp)) hs1 (hs e (by simp)) hpos hv hr)

end C98

/-- C98, after a preview has been ended. When a preview has been accepted or cancelled (event `e`), and the parameter has
the value `v` then, the next turning changes the value by the turned amount (limited to the range) - provided the
parameter did not change since then. (`p` is the position of the encoder in between, not the one represented by -1.) -/
theorem C98_start_partial (c : Wheel.Config) (hc : c.Ok) (lab : Preview.State) (es : List Ev) (e : Ev) (mid : List Ev)
    (hf : ∀ x ∈ es ++ e :: mid, x.free = true) (w w₁ w₂ : World) (os os₂ : List (List Encoder.Eff)) (o : List Encoder.Eff)
    (h : Wheel.run c (initial c lab) es = .ok (w, os)) (h₁ : Wheel.step c w e = .ok (w₁, o))
    (h₂ : Wheel.run c w₁ mid = .ok (w₂, os₂)) (i : Bool) (hr : .previewReset i ∈ o)
    (p : Int) (hp : lastPosition es = some p) (hpos : pyInt (p * c.enc.step) ≠ -1)
    (hs : ∀ x ∈ e :: mid, Still p x) (v : Int) (hv : w₁.enc.value = some v) (hrange : c.enc.min ≤ v ∧ v ≤ c.enc.max)
    (now q : Int) :
    ∃ w₃ o₃, Wheel.step c w₂ (.turn now q) = .ok (w₃, o₃) ∧
      previewed none o₃ =
        (let n := Encoder.limit c.enc.min c.enc.max (v + (pyInt (q * c.enc.step) - pyInt (p * c.enc.step)))
         if n = v then none else some n) := by
  obtain ⟨hi, _⟩ := run_inv hc (inv_initial lab) (fun x hx => hf x (by simp [hx])) h
  have hl := C98.run_lastPos hc h p hp
  have hrest := C98.reset_rests hc p hi (hf e (by simp)) h₁ (hs e (by simp)) hpos hl i hr v hv
  have hi₁ := (step_inv hc hi (hf e (by simp)) h₁).1
  have hrest₂ := hrest.keeps hc hi₁ (fun x hx => hf x (by simp [hx])) h₂ (fun x hx => hs x (by simp [hx])) hpos hrange
  obtain ⟨enc', es', h3, h4, _⟩ := hrest₂.turn hc hpos hrange q
  exact ⟨_, _, by simp only [Wheel.step, h3]; rfl, h4⟩

-- accepted with 8080 at position 12; turned to 15 after some time
example : (Wheel.run defaultWheel (initial defaultWheel { content := "Rig" })
    [.device (some 8000), .turn 0 10, exPress 100, exPress 800, exRelease 900, .turn 1000 12, exPress 1300,
     exRelease 1400]).map (fun r => (r.2.getLast?, r.1.enc.value)) =
      .ok (some [.set 8080, .previewReset false], some 8080) := by decide +kernel
example : (Wheel.run defaultWheel (initial defaultWheel { content := "Rig" })
    [.device (some 8000), .turn 0 10, exPress 100, exPress 800, exRelease 900, .turn 1000 12, exPress 1300, exRelease 1400,
     .turn 1450 12, .update 1480, .turn 1500 15]).map (·.2.getLast?) = .ok (some [.preview 8200]) := by decide +kernel

/-- C98 fails at the start: the first turning does not start from the value of the parameter. Here the gain is at 8000;
one step up and a short press set it to 39. -/
theorem C98_first : (Wheel.run defaultWheel (initial defaultWheel { content := "Rig" })
    [.device (some 8000), .turn 0 10, .turn 50 11, exPress 100, exRelease 200]).map (fun r => r.2.map Encoder.sets) =
      .ok [[], [], [], [], [39]] := by decide +kernel

/-- C98 fails when the parameter changes on the device: whatever value `x` it gets while the encoder rests at `v`, turning
starts from `v`. -/
theorem C98_stale (c : Wheel.Config) (hc : c.Ok) (w : World) (p v : Int) (hr : C98.Rests c p v w.enc)
    (hrm : c.enc.resetMapping = false) (hpos : pyInt (p * c.enc.step) ≠ -1) (x now q : Int)
    (hq : pyInt (q * c.enc.step) ≠ pyInt (p * c.enc.step)) :
    ∃ w' o, Wheel.run c w [.device (some x), .turn now q] = .ok (w', [[], o]) ∧
      previewed none o =
        (let n := Encoder.limit c.enc.min c.enc.max (v + (pyInt (q * c.enc.step) - pyInt (p * c.enc.step)))
         if n = v then none else some n) := by
  have hcr : ∀ enc, Encoder.checkReset c.enc enc = .ok (enc, []) := by intro enc; simp [Encoder.checkReset, hrm]
  have key : ∃ enc' o, Encoder.process c.enc { w.enc with value := some x } q = .ok (enc', o) ∧ previewed none o =
        (let n := Encoder.limit c.enc.min c.enc.max (v + (pyInt (q * c.enc.step) - pyInt (p * c.enc.step)))
         if n = v then none else some n) := by
    unfold Encoder.process
    simp only
    rw [if_neg (by simp only [hr.pos]; exact hpos), hcr]
    simp only
    rw [if_neg (by simp only [hr.pos]; exact fun h => hq h.symm)]
    unfold Encoder.turned
    have hg : Encoder.getValue c.enc { w.enc with value := some x } = .ok (some x) := by
      simp [Encoder.getValue, hc.scale]
    rw [hg]
    simp only [hc.pre, hc.prev, if_true, hr.last, reduceCtorEq, if_false, hr.pos]
    rw [Encoder.clamp_eq hc.range]
    generalize Encoder.limit c.enc.min c.enc.max (v + (pyInt (q * c.enc.step) - pyInt (p * c.enc.step))) = n
    by_cases hn : n = v
    · subst hn
      simp only [ne_eq, not_true_eq_false, if_false, if_true]
      exact ⟨_, _, rfl, rfl⟩
    · have : (some v : Option Int) ≠ some n := by simp; exact fun h => hn h.symm
      simp only [this, ne_eq, not_false_eq_true, if_true, if_neg hn]
      exact ⟨_, _, rfl, rfl⟩
  obtain ⟨enc', o, h1, h2⟩ := key
  exact ⟨⟨enc', w.sw, showAll c now w.lab o⟩, o, by simp only [Wheel.run, Wheel.step, h1], h2⟩

-- such states are reached: at rest with 8080 after an accepted value
example : (Wheel.run { defaultWheel with enc := { defaultWheel.enc with resetMapping := false } }
    (initial defaultWheel { content := "Rig" })
    [.device (some 8000), .turn 0 10, exPress 100, exPress 800, exRelease 900, .turn 1000 12, exPress 1300,
     exRelease 1400]).map (fun r => (r.1.enc.active, r.1.enc.lastValue, r.1.enc.value, r.1.enc.lastPos)) =
      .ok (false, some 8080, some 8080, pyInt (((12 : Int) : Rat) * 40)) := by decide +kernel

/-- C98 fails after a change of the rig: if the new gain (2000) comes in after the wheel has noticed the new rig, turning
starts from the gain of the old rig (8000). Here a step up sets the gain of the new rig to 8040. -/
theorem C98_rig : (Wheel.run defaultWheel (initial defaultWheel { content := "Rig" })
    [.device (some 8000), .rig (some 1), .turn 0 10, .rig (some 2), .turn 10 10, .device (some 2000), .turn 20 10,
     .turn 50 11, exPress 100, exRelease 200]).map (fun r => r.2.map Encoder.sets) =
      .ok [[], [], [], [], [], [], [], [], [], [8040]] := by decide +kernel

/-- C98 fails without a device: holding the wheel and then turning it raises an exception. -/
theorem C98_crash : (Wheel.run defaultWheel (initial defaultWheel { content := "Rig" })
    [.turn 0 10, exPress 100, exPress 800, exRelease 900, .turn 1000 11]).map (·.2) = .error .typeError := by
  decide +kernel

end PySwitch.Props
