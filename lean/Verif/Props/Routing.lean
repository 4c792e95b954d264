import Verif.Lemmas.Basic
import Verif.Lemmas.Routing
/-
Properties C07, C08, C09: MIDI routings.
-/
namespace PySwitch.Props
open PySwitch.Routing PySwitch.Routing.Spec
open PySwitch.Wire (Msg)

/-- All effects of sending a list of messages one after the other. -/
def sends (rs : List Routing) (ms : List Msg) : List Eff := ms.flatMap (fun m => (send rs m).1)

/-- C07: one message sent by the application is delivered once per routing from the application, to that
routing's target, in routing order; nothing else happens to any device, and the call does not fail. -/
theorem C07_send (rs : List Routing) (hs : NoSelf rs) (m : Msg) :
    send rs m = ((applTargets rs).map (fun t => Eff.send t m), true) := by
  unfold send
  induction rs with
  | nil => rfl
  | cons r rs ih =>
    have ih := ih (fun x hx => hs x (by simp [hx]))
    have hr := hs r (by simp)
    obtain ⟨s, t⟩ := r
    cases s <;> cases t <;> simp [fromAppl, applTargets, sendLoop] at ih hr ⊢ <;> simp [ih]

/-- C07: after any sequence of sends, each device has received every message exactly once per routing
leading from the application to it, in the order of sending. -/
theorem C07_deliveries (rs : List Routing) (hs : NoSelf rs) (ms : List Msg) (t : Nat) :
    deliveredTo t (sends rs ms) = ms.flatMap (fun m => List.replicate ((applTargets rs).count t) m) := by
  induction ms with
  | nil => rfl
  | cons m ms ih =>
    have e : sends rs (m :: ms) = (send rs m).1 ++ sends rs ms := by simp [sends]
    have ha : ∀ a b : List Eff, deliveredTo t (a ++ b) = deliveredTo t a ++ deliveredTo t b := by
      simp [deliveredTo]
    rw [e, ha, ih, List.flatMap_cons, C07_send rs hs]
    congr 1
    generalize applTargets rs = l
    induction l with
    | nil => rfl
    | cons x l ihl =>
      simp only [deliveredTo, List.map_cons, List.filterMap_cons] at ihl ⊢
      by_cases hx : x = t
      · simp [hx, ihl, List.replicate_succ]
      · simp [hx, ihl]

-- an application feeding two devices, one of them twice, beside a pass-through and an input routing
def exampleTable : List Routing :=
  [⟨none, some 1⟩, ⟨some 1, none⟩, ⟨some 2, some 1⟩, ⟨none, some 3⟩, ⟨some 2, some 3⟩, ⟨none, some 1⟩]
example : NoSelf exampleTable := by simp [NoSelf, exampleTable]
example : deliveredTo 1 (sends exampleTable [.pc 1 none, .pc 2 none])
    = [.pc 1 none, .pc 1 none, .pc 2 none, .pc 2 none] := by decide

/-- C08: one poll forwards the next message of each pass-through source, if it is a known message, to the
target of each of its pass-through routings, once, in routing order, and sends nothing else. -/
theorem C08_poll (rs : List Routing) (q : Reads) :
    deliveries (receive rs q).2.2
      = (passes rs).filterMap (fun p => ((nextRead q p.1).filter Known).map (fun m => (p.2, m))) := by
  simp only [receive]
  rw [deliveries_append, processExternal_eff, deliveries_append, deliveries_sends,
    deliveries_reads _ (fun e he => by
      obtain ⟨d, a, h⟩ := collect_eff_kind _ _ _ e he; exact ⟨d, a, _, h⟩),
    deliveries_reads _ (fun e he => by
      obtain ⟨d, a, h⟩ := applLoop_eff_kind _ _ e he; exact ⟨d, a, _, h⟩)]
  simp [forward]

/-- C08: with respect to the pass-through routings, one poll reads each of their sources exactly once and no
other device. -/
theorem C08_reads (rs : List Routing) (q : Reads) (d : Nat) :
    (receive rs q).2.2.filterMap (fun
      | .read d' a false => if d' = d then some a else none
      | _ => none)
      = if d ∈ (passes rs).map (·.1) then [nextRead q d] else [] := by
  simp only [receive]
  rw [processExternal_eff, List.filterMap_append, List.filterMap_append]
  have h1 : ∀ l : List Eff, (∀ e ∈ l, ∃ d a, e = .read d a true) →
      l.filterMap (fun
      | .read d' a false => if d' = d then some a else none
      | _ => none) = [] := by
    intro l hl
    rw [List.filterMap_eq_nil_iff]
    intro e he
    obtain ⟨d, a, rfl⟩ := hl e he
    rfl
  rw [h1 _ (applLoop_eff_kind _ _)]
  have h2 : ∀ l : List (Nat × Msg), (l.map (fun x => Eff.send x.1 x.2)).filterMap (fun
      | .read d' a false => if d' = d then some a else none
      | _ => none) = [] := by
    intro l
    rw [List.filterMap_eq_nil_iff]
    intro e he
    obtain ⟨x, -, rfl⟩ := List.mem_map.1 he
    rfl
  rw [h2]
  have h3 : ∀ l : List Eff, (∀ e ∈ l, ∃ d a, e = .read d a false) →
      l.filterMap (fun
      | .read d' a false => if d' = d then some a else none
      | _ => none) = answersOf d l := by
    intro l hl
    unfold answersOf
    apply filterMap_congr'
    intro e he
    obtain ⟨d, a, rfl⟩ := hl e he
    rfl
  rw [h3 _ (collect_eff_kind _ _ _), collect_eff_answers, sources_external]
  by_cases h : d ∈ (passes rs).map (·.1)
  · rw [if_pos ⟨rfl, h⟩, if_pos h]; rfl
  · rw [if_neg (fun x => h x.2), if_neg h]; rfl

/-- C08: over any number of polls, if no pass-through source is also routed to the application, the `i`-th
poll forwards exactly the `i`-th message of each pass-through source: nothing is lost, duplicated or
reordered, whatever arrives when. -/
theorem C08_run (rs : List Routing) (q : Reads) (n : Nat)
    (hd : ∀ p ∈ passes rs, p.1 ∉ applSources rs) :
    deliveries (receives rs n q).2.2
      = (List.range n).flatMap (fun i =>
          (passes rs).filterMap (fun p => ((nthRead q p.1 i).filter Known).map (fun m => (p.2, m)))) := by
  induction n generalizing q with
  | zero => rfl
  | succ n ih =>
    simp only [receives]
    rw [deliveries_append, C08_poll, ih, List.range_succ_eq_map, List.flatMap_cons]
    congr 1
    · apply filterMap_congr'
      intro p _
      simp [nextRead, nthRead, List.head?_eq_getElem?]
    · rw [List.flatMap_map]
      congr 1
      funext i
      apply filterMap_congr'
      intro p hp
      have hq : (receive rs q).2.1 p.1 = (q p.1).tail := by
        simp only [receive]
        rw [applLoop_queue_other _ _ _ (by rw [sources_toAppl]; exact hd p hp), processExternal_queue,
          if_pos (List.mem_map_of_mem hp)]
      simp [nthRead, hq]

-- device 2 (pass-through to 1 and 3) delivers a CC, nothing, an unknown event and a PC
def exampleReads : Reads := fun d =>
  if d = 2 then [some (.cc 1 2 none), none, some (.unknown 248), some (.pc 7 none)]
  else if d = 1 then [none, some (.pc 9 none)] else []
example : ∀ p ∈ passes exampleTable, p.1 ∉ applSources exampleTable := by decide
example : deliveries (receives exampleTable 4 exampleReads).2.2
    = [(1, .cc 1 2 none), (3, .cc 1 2 none), (1, .pc 7 none), (3, .pc 7 none)] := by decide

/-- The messages returned by a sequence of `receive()` calls. -/
def returned (as : List (Option (Option Msg))) : List Msg := as.filterMap Option.join

/-- C09: what `receive()` returns is exactly what it has read for the application, in order. -/
theorem C09_returned (rs : List Routing) (q : Reads) (n : Nat) :
    returned (receives rs n q).1 = toApplAll (receives rs n q).2.2 := by
  induction n generalizing q with
  | zero => rfl
  | succ n ih =>
    simp only [receives]
    have ha : ∀ a b : List Eff, toApplAll (a ++ b) = toApplAll a ++ toApplAll b := by simp [toApplAll]
    rw [ha, ← ih]
    have h1 : toApplAll (receive rs q).2.2 = ((receive rs q).1.join).toList := by
      simp only [receive]
      rw [ha, applLoop_answer]
      have : toApplAll (processExternal rs q).2 = [] := by
        rw [processExternal_eff]
        simp only [toApplAll, List.filterMap_append, List.append_eq_nil_iff, List.filterMap_eq_nil_iff]
        constructor
        · intro e he
          obtain ⟨d, a, rfl⟩ := collect_eff_kind _ _ _ e he
          rfl
        · intro e he
          obtain ⟨x, -, rfl⟩ := List.mem_map.1 he
          rfl
      rw [this, List.nil_append]
    rw [h1]
    simp only [returned, List.filterMap_cons]
    cases (receive rs q).1.join <;> rfl

/-- C09: each message a device delivers is read exactly once: the messages read so far followed by the ones
still to come are the messages of the device, whatever the routings are. -/
theorem C09_conserved (rs : List Routing) (q : Reads) (n : Nat) (d : Nat) :
    (answersOf d (receives rs n q).2.2).filterMap id ++ ((receives rs n q).2.1 d).filterMap id
      = (q d).filterMap id := by
  induction n generalizing q with
  | zero => simp [receives, answersOf]
  | succ n ih =>
    simp only [receives]
    rw [answersOf_append, List.filterMap_append, List.append_assoc, ih, receive_conserve_all]

/-- C09: of a device without pass-through routing, the application gets all messages in order (as far as
they have been read). -/
theorem C09_no_loss (rs : List Routing) (q : Reads) (n : Nat) (d : Nat)
    (hd : d ∉ (passes rs).map (·.1)) :
    toApplOf d (receives rs n q).2.2 ++ ((receives rs n q).2.1 d).filterMap id = (q d).filterMap id := by
  rw [← C09_conserved rs q n d]
  congr 1
  induction n generalizing q with
  | zero => rfl
  | succ n ih =>
    simp only [receives]
    have ha : ∀ a b : List Eff, toApplOf d (a ++ b) = toApplOf d a ++ toApplOf d b := by simp [toApplOf]
    rw [ha, answersOf_append, List.filterMap_append, ih]
    congr 1
    simp only [receive]
    rw [ha, answersOf_append, List.filterMap_append]
    congr 1
    · rw [processExternal_eff, answersOf_append, answersOf_sends, collect_eff_answers, sources_external,
        if_neg (fun h => hd h.2)]
      simp only [toApplOf, List.append_nil, List.filterMap_nil, List.filterMap_append,
        List.append_eq_nil_iff, List.filterMap_eq_nil_iff]
      constructor
      · intro e he
        obtain ⟨d, a, rfl⟩ := collect_eff_kind _ _ _ e he
        rfl
      · intro e he
        obtain ⟨x, -, rfl⟩ := List.mem_map.1 he
        rfl
    · have hk := applLoop_eff_kind (toAppl rs) (processExternal rs q).1
      generalize (applLoop (toAppl rs) (processExternal rs q).1).2.2 = l at hk
      induction l with
      | nil => rfl
      | cons e l ihl =>
        have ihl := ihl (fun x hx => hk x (by simp [hx]))
        obtain ⟨d', a, rfl⟩ := hk e (by simp)
        rw [answersOf_cons_read]
        simp only [toApplOf, List.filterMap_cons] at ihl ⊢
        by_cases h : d' = d
        · simp only [h, if_true, List.filterMap_cons, id]
          cases a <;> simp [ihl]
        · simp [h, ihl]

/-- C09: a poll returns nothing only if no application source (without pass-through routing) has a message
ready. -/
theorem C09_none (rs : List Routing) (q : Reads) (h : (receive rs q).1 = some none) (d : Nat)
    (hd : d ∈ applSources rs) (hp : d ∉ (passes rs).map (·.1)) : nextRead q d = none := by
  simp only [receive] at h
  have := applLoop_none _ _ h d (by rw [sources_toAppl]; exact hd)
  unfold nextRead at this ⊢
  rwa [processExternal_queue, if_neg hp] at this

/-- C09: without a routing from the application to itself, polling never fails. -/
theorem C09_no_error (rs : List Routing) (hs : NoSelf rs) (q : Reads) : (receive rs q).1 ≠ none := by
  simp only [receive]
  have : ∀ r ∈ toAppl rs, r.source ≠ none := by
    intro r hr h
    simp only [toAppl, List.mem_filter, beq_iff_eq] at hr
    exact hs r hr.1 ⟨h, hr.2⟩
  generalize toAppl rs = l at this
  generalize (processExternal rs q).1 = q
  induction l generalizing q with
  | nil => simp [applLoop]
  | cons r l ih =>
    simp only [applLoop]
    cases hsr : r.source with
    | none => exact absurd hsr (this r (by simp))
    | some s =>
      simp only
      cases (q.receive s).1 with
      | some m => simp
      | none => exact ih (fun x hx => this x (by simp [hx])) _

/-- C09: a device which is the source of pass-through and of application routings has its messages split
between both, not copied: each message read goes to exactly one of them. -/
theorem C09_split (rs : List Routing) (q : Reads) (n : Nat) (d : Nat) :
    (toPassOf d (receives rs n q).2.2 ++ toApplOf d (receives rs n q).2.2
      ++ ((receives rs n q).2.1 d).filterMap id).Perm ((q d).filterMap id) := by
  rw [← C09_conserved rs q n d]
  refine List.Perm.append ?_ (List.Perm.refl _)
  generalize (receives rs n q).2.2 = l
  induction l with
  | nil => exact List.Perm.refl _
  | cons e l ih =>
    cases e with
    | send t m => simpa [toPassOf, toApplOf, answersOf] using ih
    | read d' a b =>
      rw [answersOf_cons_read]
      simp only [toPassOf, toApplOf, List.filterMap_cons] at ih ⊢
      by_cases h : d' = d
      · cases b <;> cases a <;> simp [h] at ih ⊢
        · exact ih
        · exact ih
        · exact ih
        · exact List.perm_middle.trans (ih.cons _)
      · cases b <;> simp [h] at ih ⊢ <;> exact ih

-- the example device 1 is routed to the application only; its message arrives with the second poll
example : (1 : Nat) ∉ (passes exampleTable).map (·.1) ∧ 1 ∈ applSources exampleTable := by decide
example : (receives exampleTable 3 exampleReads).1 = [some none, some (some (.pc 9 none)), some none] := by
  decide
-- a device with both kinds of routing: the two messages go to different places
example : let r := receives [⟨some 2, some 1⟩, ⟨some 2, none⟩] 1
            (fun _ => [some (.pc 1 none), some (.pc 2 none)])
    r.1 = [some (some (.pc 2 none))] ∧ deliveries r.2.2 = [(1, .pc 1 none)] := by decide

end PySwitch.Props
