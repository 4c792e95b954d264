import Verif.Model.Misc
import Verif.Model.Wire
/-
Model of the processing loop in `content/lib/pyswitch/controller/controller.py`.

The answers of the successive `midi.receive()` calls are an arbitrary infinite sequence `Nat → Option Msg`
(`none`: nothing received), so endless message bursts are covered. Inputs and updateables are numbers; what
they do when called is not relevant here, only that and when they are called.
-/
namespace PySwitch.Loop
open PySwitch.Wire (Msg)

/-- What the loop does, in order. (`controller.py:120-187`.) -/
inductive Eff where
  | process (input : Nat)
  | read (answer : Option Msg)
  | client (msg : Option Msg)
  | update (u : Nat)
deriving Repr, DecidableEq

/-- Configuration of the controller: `controller.py:91-117`. -/
structure Config where
  /-- `maxConsecutiveMidiMessages` -/
  maxMsgs : Int := 10
  inputs : List Nat
  updateables : List Nat
  /-- `clearBuffers` -/
  clearBuffer : Bool := true

/-- `controller.py:166-187` `__receive_midi_messages`, the `while True` loop. `pos` is the number of
`midi.receive()` calls made before. Statistics calls (debugging only) are not modelled. -/
def receiveLoop (c : Config) (reads : Nat → Option Msg) (pos : Nat) (cnt : Int) : List Eff × Nat :=
  let msg := reads pos
  let cnt' := cnt + 1
  let now := c.inputs.map .process ++ [.read msg, .client msg]
  if msg = none ∨ cnt' > c.maxMsgs then (now, pos + 1)
  else
    let rest := receiveLoop c reads (pos + 1) cnt'
    (now ++ rest.1, rest.2)
termination_by (c.maxMsgs - cnt).toNat

/-- `controller.py:166-187`. -/
def receiveMessages (c : Config) (reads : Nat → Option Msg) (pos : Nat) : List Eff × Nat :=
  receiveLoop c reads pos 0

/-- `controller.py:146-150`: the loop over the updateables. -/
def updateLoop (c : Config) (reads : Nat → Option Msg) : List Nat → Nat → List Eff × Nat
  | [], pos => ([], pos)
  | u :: us, pos =>
    let r := receiveMessages c reads pos
    let rest := updateLoop c reads us r.2
    (r.1 ++ [.update u] ++ rest.1, rest.2)

/-- `controller.py:143-157` `tick`, the clock reads `now`. -/
def tick (c : Config) (reads : Nat → Option Msg) (period : PeriodCounter) (pos : Nat) (now : Int) :
    List Eff × PeriodCounter × Nat :=
  let e := period.exceeded now
  let u := if e.1 then updateLoop c reads c.updateables pos else ([], pos)
  let r := receiveMessages c reads u.2
  (u.1 ++ r.1, e.2, r.2)

/-- `controller.py:137-140`: `init()` consumes all pending messages. The backlog is finite here (the loop does
not end otherwise): the first empty read comes after at most `fuel` messages. -/
def drain (reads : Nat → Option Msg) : Nat → Nat → List Eff × Nat
  | 0, pos => ([.read (reads pos)], pos + 1)
  | fuel + 1, pos =>
    match reads pos with
    | none => ([.read none], pos + 1)
    | some m =>
      let rest := drain reads fuel (pos + 1)
      (.read (some m) :: rest.1, rest.2)

/-- `controller.py:120-140` `init()`. Showing the UI and the memory check are not modelled. -/
def init (c : Config) (reads : Nat → Option Msg) (backlog : Nat) : List Eff × Nat :=
  if c.clearBuffer then drain reads backlog 0 else ([], 0)

/-- A sequence of ticks. (No code of its own: repeated `controller.py:143-157`, as in `process.py:73`.) -/
def ticks (c : Config) (reads : Nat → Option Msg) : PeriodCounter → Nat → List Int → List Eff × Nat
  | _, pos, [] => ([], pos)
  | p, pos, t :: ts =>
    let r := tick c reads p pos t
    let rest := ticks c reads r.2.1 r.2.2 ts
    (r.1 ++ rest.1, rest.2)

end PySwitch.Loop
