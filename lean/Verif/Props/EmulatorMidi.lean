import Verif.Lemmas.EmulatorMidi

/-!
C143: The emulator receives the MIDI messages from the client as they were sent.

`run channels size {} (events h)` is the state after a history of messages which arrive and calls of `receive()`; `.out` are the messages which
those calls have returned.
-/

namespace PySwitch.Props
open PySwitch.Wire PySwitch.Wire.Spec PySwitch.EmulatorMidi PySwitch.EmulatorMidi.Spec

/-- Whatever arrives and whenever `receive()` is called: the messages returned are messages which arrived and are for a channel listened to, in the
same order and none of them twice. Nothing is mangled. -/
theorem C143_order (channels : List Nat) (size : Nat) (h : History) (hv : ∀ m ∈ arrived h, Valid m) :
    (run channels size {} (events h)).out.Sublist ((arrived h).filter (Heard channels)) := by
  obtain ⟨done, bs, q, h1, h2, -⟩ := holds_run channels size h hv
  rw [h1.out]
  refine List.Sublist.filter _ (List.Sublist.trans ?_ h2)
  rw [List.append_assoc]
  exact List.sublist_append_left _ _

/-- No message is lost as long as at each call there is room in the buffer for each message which waits: what has been returned, what is in the buffer
and what waits are together all messages which arrived. It is missing that no message is lost without this (see `C143_lost_witness`). -/
theorem C143_fits_partial (channels : List Nat) (size : Nat) (h : History) (hv : ∀ m ∈ arrived h, Valid m) (hf : Fits channels size h) :
    ∃ done buffer queue, arrived h = done ++ buffer ++ queue ∧ (run channels size {} (events h)).out = done.filter (Heard channels) ∧
      (run channels size {} (events h)).buf = stream buffer ∧ (run channels size {} (events h)).queue = queue.map wire := by
  obtain ⟨done, bs, q, h1, -, h3⟩ := holds_run channels size h hv
  exact ⟨done, bs, q, (h3 hf).symm, h1.out, h1.buf, h1.queue⟩

/-- All messages are received when in each round as many calls follow as messages arrived, and no message is longer than the buffer, however many
arrive at once (also if they are longer than the buffer together). It is missing that this holds for longer messages and for other calls. -/
theorem C143_all_partial (channels : List Nat) (size : Nat) (rs : List (List Msg × Nat))
    (hr : ∀ r ∈ rs, (∀ m ∈ r.1, Valid m ∧ (wire m).length ≤ size) ∧ r.1.length ≤ r.2) :
    (run channels size {} (events (rounds rs))).out = (rs.flatMap (·.1)).filter (Heard channels) := by
  have := (rounds_holds (channels := channels) (size := size) rs (s := {}) (done := []) ⟨rfl, rfl, rfl⟩ hr).out
  rwa [List.nil_append] at this

/-- Three control changes and a SysEx message. -/
def c143Burst : List Msg := [.cc 47 1 (some 0), .sysex [0, 32, 51] [2, 127, 3, 0, 4, 5], .cc 48 1 (some 0), .cc 49 1 (some 3)]

example : (∀ r ∈ [(c143Burst, 4), ([Msg.pc 5 (some 0)], 1), ([], 3)], (∀ m ∈ r.1, Valid m ∧ (wire m).length ≤ 100) ∧ r.1.length ≤ r.2) := by
  simp [c143Burst, Valid, Data7, wire]

example : (run [0] 12 {} (events (rounds [(c143Burst, 4), ([.pc 5 (some 0)], 1)]))).out = c143Burst.take 3 ++ [.pc 5 (some 0)] := by
  decide +kernel

example : ∀ m ∈ arrived (rounds [(c143Burst, 2), ([.pc 5 (some 0)], 1)]), Valid m := by
  simp [c143Burst, Valid, Data7, rounds, arrived]

/-- A SysEx message with 98 bytes (such as a long rig name or a block of parameters). -/
def c143Long : Msg := .sysex [0, 32, 51] (List.replicate 93 1)

/-- A message which arrives while others wait in the buffer is lost if it does not fit to them, although the buffer is large enough for it: the burst
of messages arrives, `receive()` is called once, the long message arrives, and then `receive()` is called as often as one likes. The long message is
never returned. -/
theorem C143_lost_witness : ∃ first long : Msg, (∀ m ∈ [first, first, long], Valid m ∧ (wire m).length ≤ 100) ∧
    ∀ n, (run [0] 100 {} (events ([some first, some first, none, some long] ++ List.replicate n none))).out.Sublist [first, first] := by
  refine ⟨.cc 47 1 (some 0), c143Long, by simp [c143Long, Valid, Data7, wire], fun n => ?_⟩
  cases n with
  | zero => decide +kernel
  | succ n =>
    have e : run [0] 100 {} (events [some (.cc 47 1 (some 0)), some (.cc 47 1 (some 0)), none, some c143Long, none]) =
      ⟨[], [], [.cc 47 1 (some 0), .cc 47 1 (some 0)]⟩ := by decide +kernel
    have : [some (.cc 47 1 (some 0)), some (.cc 47 1 (some 0)), none, some c143Long] ++ List.replicate (n + 1) none =
      [some (.cc 47 1 (some 0)), some (.cc 47 1 (some 0)), none, some c143Long, none] ++ List.replicate n none := rfl
    rw [this, events_append, run_append, e]
    have := (drain (channels := [0]) (size := 100) n (s := ⟨[], [], [.cc 47 1 (some 0), .cc 47 1 (some 0)]⟩)
      (done := [.cc 47 1 (some 0), .cc 47 1 (some 0)]) (bs := []) ⟨rfl, rfl, rfl⟩ (by simp) (by simp)).out
    rw [this]
    exact List.Sublist.refl _

/-- A message longer than the buffer is never received in the emulator. -/
theorem C143_too_long_witness : ∃ m : Msg, Valid m ∧ ∀ n, (run [0] 100 {} (events (some m :: List.replicate n none))).out = [] := by
  refine ⟨.sysex [0, 32, 51] (List.replicate 120 1), by simp [Valid, Data7], fun n => ?_⟩
  cases n with
  | zero => rfl
  | succ n =>
    have e : run [0] 100 {} (events [some (.sysex [0, 32, 51] (List.replicate 120 1)), none]) = {} := by decide +kernel
    have : (some (.sysex [0, 32, 51] (List.replicate 120 1)) :: List.replicate (n + 1) none : History) =
      [some (.sysex [0, 32, 51] (List.replicate 120 1)), none] ++ List.replicate n none := rfl
    rw [this, events_append, run_append, e]
    exact (drain (channels := [0]) (size := 100) n (s := {}) (done := []) (bs := []) ⟨rfl, rfl, rfl⟩ (by simp) (by simp)).out

end PySwitch.Props
