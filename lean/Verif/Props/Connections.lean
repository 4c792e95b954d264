import Verif.Lemmas.Connections

/-!
C146: The editor listens to the connected controller with one bridge.

`run ports es` is the state after the events `es`: calls of `connect` for a port, answers and timeouts, in any order. The second part is about the messages of
one port, at which one or two bridges of the editor listen.
-/

namespace PySwitch.Props
open PySwitch.Bridge PySwitch.Connections PySwitch.Connections.Spec

/-- The bridge of the connection listens to its port, which exists, and is the last one which got an answer. -/
theorem C146_listens (ports : List String) (es : List Ev) (x : Nat × String) (hx : (run ports es).connection = some x) :
    x ∈ (run ports es).listeners ∧ x.2 ∈ ports ∧ (run ports es).made.getLast? = some x := by
  have h := inv_run ports es
  have hl := h.current x hx
  have hm : x ∈ (run ports es).listeners := h.split.mem_iff.2 (List.mem_append_left _ (List.mem_of_getLast? hl))
  exact ⟨hm, (h.fresh x hm).2, hl⟩

example : (run ["A", "B"] [.connect "A", .answer 0, .connect "B", .timeout 1, .connect "B", .answer 2]).connection = some (2, "B") := by decide

/-- Connecting to the connected port again does nothing. -/
theorem C146_connected (ports : List String) (es : List Ev) (x : Nat × String) (hx : (run ports es).connection = some x) :
    run ports (es ++ [.connect x.2]) = run ports es := by
  rw [run_append]
  simp [State.step, hx]

/-- A call which got no answer in time leaves nothing behind: its bridge does not listen, and the connection is the same as before the timeout. -/
theorem C146_timeout (ports : List String) (es : List Ev) (x : Nat × String) (hx : x ∈ (run ports es).pending) :
    (∀ y ∈ (run ports (es ++ [.timeout x.1])).listeners, y.1 ≠ x.1) ∧
      (∀ y ∈ (run ports es).listeners, y.1 ≠ x.1 → y ∈ (run ports (es ++ [.timeout x.1])).listeners) ∧
      (run ports (es ++ [.timeout x.1])).connection = (run ports es).connection := by
  rw [run_append]
  have : ((run ports es).pending.any fun y => y.1 == x.1) = true := List.any_eq_true.2 ⟨x, hx, by simp⟩
  simp only [List.foldl_cons, List.foldl_nil, State.step, this, if_true]
  exact ⟨fun y hy => by simpa using (List.mem_filter.1 hy).2, fun y hy hne => List.mem_filter.2 ⟨hy, by simpa using hne⟩, trivial⟩

example : (1, "B") ∈ (run ["A", "B"] [.connect "A", .answer 0, .connect "B"]).pending := by decide

/-- An answer makes the connection which `connect` was called for. -/
theorem C146_answer (ports : List String) (es : List Ev) (x : Nat × String) (hx : x ∈ (run ports es).pending) :
    (run ports (es ++ [.answer x.1])).connection = some x := by
  have h := inv_run ports es
  rw [run_append]
  have hn := nodup_of_split h
  rw [List.map_append, List.nodup_append] at hn
  have hf : ((run ports es).pending.find? fun y => y.1 == x.1) = some x := by
    have hn := hn.2.1
    generalize (run ports es).pending = l at hx hn
    induction l with
    | nil => simp at hx
    | cons y l ih =>
      simp only [List.map_cons, List.nodup_cons] at hn
      rcases List.mem_cons.1 hx with rfl | hx
      · simp
      · have : y.1 ≠ x.1 := fun e => hn.1 (e ▸ List.mem_map_of_mem hx)
        rw [List.find?_cons_of_neg (by simpa using this)]
        exact ih hx hn.2
  simp only [List.foldl_cons, List.foldl_nil, State.step, hf]

/-- At each port, as many bridges listen as connections to it have been made and are being made. -/
theorem C146_count (ports : List String) (es : List Ev) (port : String) :
    listening (run ports es) port =
      ((run ports es).made.filter fun x => x.2 == port).length + ((run ports es).pending.filter fun x => x.2 == port).length := by
  have := ((inv_run ports es).split.filter fun x => x.2 == port).length_eq
  rw [List.filter_append, List.length_append] at this
  exact this

/-- When each port has been connected at most once, one bridge listens at the connected port. It is missing that this holds after connecting to another port and
back, and that no bridge listens at the other port (see `C146_reconnect_witness`). -/
theorem C146_one_partial (ports : List String) (es : List Ev) (hp : (run ports es).pending = [])
    (hn : ((run ports es).made.map Prod.snd).Nodup) (x : Nat × String) (hx : (run ports es).connection = some x) :
    listening (run ports es) x.2 = 1 := by
  rw [C146_count, hp]
  have hm : x ∈ (run ports es).made := List.mem_of_getLast? ((inv_run ports es).current x hx)
  generalize (run ports es).made = l at hn hm
  show (l.filter fun y => y.2 == x.2).length + 0 = 1
  induction l with
  | nil => simp at hm
  | cons y l ih =>
    simp only [List.map_cons, List.nodup_cons] at hn
    rcases List.mem_cons.1 hm with rfl | hm
    · rw [List.filter_cons_of_pos (by simp)]
      have : l.filter (fun y => y.2 == x.2) = [] := by
        rw [List.filter_eq_nil_iff]
        intro z hz
        simp only [beq_iff_eq]
        intro e
        exact hn.1 (e ▸ List.mem_map_of_mem hz)
      rw [this]
      rfl
    · have : y.2 ≠ x.2 := fun e => hn.1 (e ▸ List.mem_map_of_mem hm)
      rw [List.filter_cons_of_neg (by simpa using this)]
      exact ih hn.2 hm

example : (run ["A", "B"] [.connect "A", .answer 0, .connect "B", .timeout 1, .connect "B", .answer 2]).pending = [] ∧
    ((run ["A", "B"] [.connect "A", .answer 0, .connect "B", .timeout 1, .connect "B", .answer 2]).made.map Prod.snd).Nodup := by decide

/-- After connecting to `A`, `B` and `A` again, two bridges listen to `A`, and one to `B`. -/
theorem C146_reconnect_witness :
    let s := run ["A", "B"] [.connect "A", .answer 0, .connect "B", .answer 1, .connect "A", .answer 2]
    s.connection = some (2, "A") ∧ listening s "A" = 2 ∧ listening s "B" = 1 := by decide

/-- When two bridges of the editor listen at the port of a controller, the request with which `connect` looks for it is the start of messages without end: whatever
is received when, there is always another message on its way. (Both bridges acknowledge the answer, which is an error as the file does not exist. The controller
answers the second acknowledgement with an error, which both acknowledge.) -/
theorem C146_endless_witness (files : Str → Except Str (Option Str)) (hf : files pingPath = .ok none) (old new device : Bridge)
    (hd : device.throws = false) (n now : Nat) (es : List LinkEv) (ho : OnlyMessages es) :
    let l := Link.run files { bridges := [old, new], nextId := n, device := device } ([.ping, .device now] ++ es)
    l.toEditor ≠ [] ∨ l.toDevice ≠ [] := by
  have := ((storm_ping files hf old new device hd n now).run files es ho).busy
  simp only [Link.run, List.foldl_append] at this ⊢
  exact this

example : OnlyMessages ((List.replicate 1000 [LinkEv.editor 5, .device 6]).flatten) := by
  intro e he
  obtain ⟨l, hl, he⟩ := List.mem_flatten.1 he
  obtain ⟨-, rfl⟩ := List.mem_replicate.1 hl
  simp only [List.mem_cons, List.not_mem_nil, or_false] at he
  rcases he with rfl | rfl
  · exact .inr ⟨5, rfl⟩
  · exact .inl ⟨6, rfl⟩

/-- With one bridge, there is silence after the answer. -/
example :
    let l := Link.run (fun _ => .ok none) { bridges := [{ nextId := 0 }], nextId := 3, device := { nextId := 7 } }
      [.ping, .device 1, .editor 2, .editor 3, .device 4]
    l.toEditor = [] ∧ l.toDevice = [] ∧ (loadSettled l.told).map Except.isOk = some false := by decide +kernel

/-- A file of the controller, and rounds in which each side receives one message. -/
def connFile : Str := List.replicate 201 97
/-- See `connFile`. -/
def connRounds (n : Nat) : List LinkEv := (List.replicate n [LinkEv.device 1, .editor 1]).flatten

set_option maxRecDepth 100000 in
/-- When two bridges listen, a file of three chunks cannot be loaded: `loadFile` rejects. With one bridge it is loaded. -/
theorem C146_load_witness :
    let files : Str → Except Str (Option Str) := fun _ => .ok (some connFile)
    let es := LinkEv.load (lit "/inputs.py") :: connRounds 6
    (loadSettled (Link.run files { bridges := [{ nextId := 0, throws := true }, { nextId := 0 }], nextId := 5, device := { nextId := 7 } } es).told).map
        Except.isOk = some false ∧
      (loadSettled (Link.run files { bridges := [{ nextId := 0 }], nextId := 5, device := { nextId := 7 } } es).told).map Except.toOption =
        some (some connFile) := by
  decide +kernel

set_option maxRecDepth 100000 in
/-- When two bridges listen and the older one has been used for loading, a file of two chunks cannot be saved: `saveFile` neither resolves nor rejects, and no
message is on its way any more. With one bridge it is saved. -/
theorem C146_save_witness :
    let files : Str → Except Str (Option Str) := fun _ => .ok none
    let es := LinkEv.save 1 (lit "/inputs.py") (List.replicate 66 97) :: connRounds 5
    let l := Link.run files { bridges := [{ nextId := 0, throws := true }, { nextId := 0 }], nextId := 5, device := { nextId := 7 } } es
    (saveSettled l.told).isNone ∧ l.toEditor = [] ∧ l.toDevice = [] ∧
      (saveSettled (Link.run files { bridges := [{ nextId := 0 }], nextId := 5, device := { nextId := 7 } } es).told).map Except.isOk = some true := by
  decide +kernel

end PySwitch.Props
