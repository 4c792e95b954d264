import Verif.Spec.Ports

/-!
C175: the lists of MIDI ports.
-/

namespace PySwitch.Props
open PySwitch.Ports PySwitch.Ports.Spec
open PySwitch.PortScan (Port)

namespace C175

theorem run_append (ad : Nat → List String) : ∀ (a b : List Ev) (s : State),
    s.run ad (a ++ b) = (((s.run ad a).1.run ad b).1, (s.run ad a).2 ++ ((s.run ad a).1.run ad b).2)
  | [], b, s => rfl
  | e :: a, b, s => by
    rw [List.cons_append, State.run, State.run]
    simp only [run_append ad a b, List.append_assoc]

theorem pairs_names (i o : List Port) : (PortScan.pairs i o).map (fun x => x.2.name) = connected i o := by
  unfold PortScan.pairs connected
  induction i with
  | nil => rfl
  | cons a i ih => simp [List.flatMap_cons, ih]

theorem state_ports (ad : Nat → List String) : ∀ (es : List Ev) (s : State),
    ((s.run ad es).1.inputs, (s.run ad es).1.outputs) = available s.inputs s.outputs es
  | [], s => rfl
  | e :: es, s => by
    rw [State.run]
    simp only [state_ports ad es]
    cases e <;> rfl

theorem still_available : ∀ (es : List Ev) (i o : List Port), Still es → available i o es = (i, o)
  | [], _, _, _ => rfl
  | e :: es, i, o, h => by
    have hs : Still es := fun e he => h e (List.mem_cons_of_mem _ he)
    cases e with
    | ports a b => exact absurd rfl (h _ (by simp) a b)
    | grant => exact still_available es i o hs
    | openList p => exact still_available es i o hs
    | message q => exact still_available es i o hs

theorem access_kept (ad : Nat → List String) : ∀ (es : List Ev) (s : State), s.access = true → (s.run ad es).1.access = true
  | [], s, h => h
  | e :: es, s, h => by
    rw [State.run]
    refine access_kept ad es _ ?_
    cases e <;> simp [State.step, h]

theorem attached_kept (ad : Nat → List String) : ∀ (es : List Ev) (s : State) (q : Port), q ∈ s.attached → q ∈ (s.run ad es).1.attached
  | [], s, q, h => h
  | e :: es, s, q, h => by
    rw [State.run]
    refine attached_kept ad es _ q ?_
    cases e <;> simp [State.step, h]

theorem toc_unopened (ad : Nat → List String) (p : Nat) : ∀ (es : List Ev) (s : State), Unopened p es → (s.run ad es).1.toc p = s.toc p
  | [], s, _ => rfl
  | e :: es, s, h => by
    rw [State.run]
    simp only
    rw [toc_unopened ad p es _ fun hh => h (List.mem_cons_of_mem _ hh)]
    cases e with
    | openList q =>
      have : p ≠ q := fun e => h (by rw [e]; exact List.mem_cons_self ..)
      simp [State.step, this]
    | _ => rfl

theorem toc_kept (ad : Nat → List String) (p : Nat) (l : List String) : ∀ (es : List Ev) (s : State), s.toc p = some l → (s.run ad es).1.toc p = some l
  | [], s, h => h
  | e :: es, s, h => by
    rw [State.run]
    refine toc_kept ad p l es _ ?_
    cases e with
    | openList q =>
      by_cases hq : p = q
      · subst hq
        simp [State.step, State.getToc, h]
      · simp [State.step, hq, h]
    | _ => exact h

theorem mem_pairs {i o : List Port} {q r : Port} (h : (q, r) ∈ PortScan.pairs i o) : q ∈ (PortScan.pairs i o).map (·.1) := List.mem_map.mpr ⟨_, h, rfl⟩

end C175

/-- **C175**: a list of ports which is opened after MIDI access has been granted shows the ports which have been available in both directions when it
has been opened for the first time, and its additional entries, no matter how often it is opened afterwards. Missing: this is not what is available
now, if ports have come or gone since, see the witness. -/
theorem C175_first_partial (ad : Nat → List String) (p : Nat) (before es : List Ev) (hg : Ev.grant ∈ before) (hu : Unopened p before) :
    ((({} : State).run ad (before ++ .openList p :: es)).1.step ad (.openList p)).2 =
      [.list (connected (available [] [] before).1 (available [] [] before).2 ++ ad p)] := by
  have hacc : (({} : State).run ad before).1.access = true := by
    obtain ⟨a, b, rfl⟩ := List.append_of_mem hg
    rw [C175.run_append]
    simp only
    rw [State.run]
    exact C175.access_kept ad b _ rfl
  have htoc : (({} : State).run ad before).1.toc p = none := C175.toc_unopened ad p before {} hu
  have hports := C175.state_ports ad before {}
  have hfirst : (({} : State).run ad before).1.getToc ad p = connected (available [] [] before).1 (available [] [] before).2 ++ ad p := by
    rw [State.getToc, htoc, State.pairs, if_pos hacc, C175.pairs_names]
    have h1 : (({} : State).run ad before).1.inputs = (available [] [] before).1 := congrArg Prod.fst hports
    have h2 : (({} : State).run ad before).1.outputs = (available [] [] before).2 := congrArg Prod.snd hports
    rw [h1, h2]
  have hkept : (({} : State).run ad (before ++ .openList p :: es)).1.toc p = some (connected (available [] [] before).1 (available [] [] before).2 ++ ad p) := by
    rw [C175.run_append]
    simp only
    rw [State.run]
    refine C175.toc_kept ad p _ es _ ?_
    simp [State.step, hfirst]
  rw [State.step, State.getToc, hkept]

/-- **C175**: as long as no port comes or goes after MIDI access has been granted, each list shows exactly the ports available in both directions
whenever it is opened, and messages of all these ports are received. -/
theorem C175_still_partial (ad : Nat → List String) (before es : List Ev) (hs : Still es) :
    let s := (({} : State).run ad (before ++ .grant :: es)).1
    let av := available [] [] (before ++ .grant :: es)
    (∀ p, Unopened p before → (s.step ad (.openList p)).2 = [.list (connected av.1 av.2 ++ ad p)]) ∧
    ∀ q ∈ av.1, (∃ r ∈ av.2, r.manufacturer = q.manufacturer ∧ r.name = q.name) → (s.step ad (.message q)).2 = [.received q.name] := by
  have hports := C175.state_ports ad (before ++ .grant :: es) {}
  have hap : ∀ (a : List Ev) (i o : List Port), available i o (a ++ .grant :: es) = available i o a := by
    intro a
    induction a with
    | nil => intro i o; exact C175.still_available es i o hs
    | cons e a ih => intro i o; cases e <;> exact ih _ _
  have hin : ∀ s : State, s = (({} : State).run ad before).1 → s.inputs = (available [] [] before).1 ∧ s.outputs = (available [] [] before).2 := by
    rintro s rfl
    have := C175.state_ports ad before {}
    exact ⟨congrArg Prod.fst this, congrArg Prod.snd this⟩
  simp only
  rw [hap before [] []]
  refine ⟨fun p hu => ?_, fun q hq hr => ?_⟩
  · obtain ⟨h1, h2⟩ := hin _ rfl
    have htoc : (({} : State).run ad before).1.toc p = none := C175.toc_unopened ad p before {} hu
    rw [hap before [] []] at hports
    have hi1 : (({} : State).run ad (before ++ .grant :: es)).1.inputs = (available [] [] before).1 := congrArg Prod.fst hports
    have hi2 : (({} : State).run ad (before ++ .grant :: es)).1.outputs = (available [] [] before).2 := congrArg Prod.snd hports
    have hacc : (({} : State).run ad (before ++ .grant :: es)).1.access = true := by
      rw [C175.run_append]
      simp only
      rw [State.run]
      exact C175.access_kept ad es _ rfl
    -- only the list p matters: forget the others
    have hp : (({} : State).run ad (before ++ .grant :: es)).1.toc p = none ∨
        (({} : State).run ad (before ++ .grant :: es)).1.toc p = some (connected (available [] [] before).1 (available [] [] before).2 ++ ad p) := by
      rw [C175.run_append]
      simp only
      rw [State.run]
      have key : ∀ (es : List Ev) (s : State), Still es → s.access = true →
          (s.toc p = none ∨ s.toc p = some (connected s.inputs s.outputs ++ ad p)) →
          ((s.run ad es).1.toc p = none ∨ (s.run ad es).1.toc p = some (connected s.inputs s.outputs ++ ad p)) := by
        intro es
        induction es with
        | nil => intro s _ _ h; exact h
        | cons e es ih =>
          intro s hs ha h
          have hs' : Still es := fun e he => hs e (List.mem_cons_of_mem _ he)
          rw [State.run]
          cases e with
          | ports a b => exact absurd rfl (hs _ (by simp) a b)
          | grant => exact ih _ hs' rfl h
          | message q => exact ih _ hs' ha h
          | openList q =>
            refine ih _ hs' ha ?_
            by_cases hp : p = q
            · subst hp
              right
              simp only [State.step, if_true]
              rcases h with h | h
              · rw [State.getToc, h, State.pairs, if_pos ha, C175.pairs_names]
              · rw [State.getToc, h]
            · simp only [State.step, hp, if_false]
              exact h
      have := key es ((({} : State).run ad before).1.step ad .grant).1 hs rfl (.inl htoc)
      have e1 : ((({} : State).run ad before).1.step ad .grant).1.inputs = (available [] [] before).1 := h1
      have e2 : ((({} : State).run ad before).1.step ad .grant).1.outputs = (available [] [] before).2 := h2
      rw [e1, e2] at this
      exact this
    rw [State.step]
    simp only
    rcases hp with hp | hp
    · rw [State.getToc, hp, State.pairs, if_pos hacc, C175.pairs_names, hi1, hi2]
    · rw [State.getToc, hp]
  · have hmem : q ∈ (({} : State).run ad (before ++ .grant :: es)).1.attached := by
      rw [C175.run_append]
      simp only
      rw [State.run]
      refine C175.attached_kept ad es _ q ?_
      obtain ⟨h1, h2⟩ := hin _ rfl
      show q ∈ _ ++ _
      rw [h1, h2]
      refine List.mem_append_right _ ?_
      obtain ⟨r, hr1, hr2, hr3⟩ := hr
      refine C175.mem_pairs (r := r) ?_
      unfold PortScan.pairs
      refine List.mem_flatMap.mpr ⟨q, hq, List.mem_map.mpr ⟨r, List.mem_filter.mpr ⟨hr1, ?_⟩, rfl⟩⟩
      simp [hr2, hr3]
    rw [State.step, if_pos hmem]

/-- A controller which is there from the beginning and one which is plugged in later. -/
def c175Ports : List Port := [⟨"PySwitch", "Tunetown", 0⟩]

def c175More : List Port := [⟨"PySwitch", "Tunetown", 0⟩, ⟨"Player", "Kemper", 1⟩]

/-- The hypotheses are met. -/
example : Unopened 0 [.ports c175Ports c175Ports] ∧
    (({} : State).run (fun _ => []) [.ports c175Ports c175Ports, .grant, .openList 0, .message ⟨"PySwitch", "Tunetown", 0⟩]).2 =
      [.list ["PySwitch"], .received "PySwitch"] := by
  unfold Unopened
  decide

example : Still [.openList 0, .message ⟨"PySwitch", "Tunetown", 0⟩] := by
  intro e he i o
  simp only [List.mem_cons, List.not_mem_nil, or_false] at he
  rcases he with rfl | rfl <;> exact nofun

/-- **C175** does not hold if ports come and go: a device which is plugged in after the list has been opened is missing there, a device which
has been removed is still offered, and no message of the new device is received, even if it is in a list which is opened for the first time. -/
theorem C175_plugged_witness :
    (({} : State).run (fun _ => []) [.ports c175Ports c175Ports, .grant, .openList 0, .ports c175More c175More, .openList 0, .openList 1,
      .message ⟨"Player", "Kemper", 1⟩, .ports [] [], .openList 0]).2 =
      [.list ["PySwitch"], .list ["PySwitch"], .list ["PySwitch", "Player"], .list ["PySwitch"]] ∧
    connected c175More c175More = ["PySwitch", "Player"] ∧ connected [] [] = [] := by decide

end PySwitch.Props
