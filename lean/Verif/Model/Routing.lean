import Verif.Model.Wire
/-
Model of `content/lib/pyswitch/controller/midi.py`.

A MIDI device is a number. What its `receive()` calls answer is given from outside: a list of reads
(`none`: nothing available), after which all further reads are empty. So every arrival pattern is covered.
Everything the controller does to the devices is recorded in a trace of effects.
-/
namespace PySwitch.Routing
open PySwitch.Wire (Msg)

/-- `midi.py:35-47` `MidiRouting`; `none` stands for `MidiRouting.APPLICATION`. -/
structure Routing where
  source : Option Nat
  target : Option Nat
deriving Repr, DecidableEq

/-- Calls the controller makes to devices. (`midi.py:64-117`.) -/
inductive Eff where
  /-- `source.receive()` with its answer; `forAppl` tells if the routing leads to the application
  (line 75) or to another device (line 96). -/
  | read (device : Nat) (answer : Option Msg) (forAppl : Bool)
  /-- `target.send(msg)`. -/
  | send (device : Nat) (msg : Msg)
deriving Repr, DecidableEq

/-- The answers of the future `receive()` calls of each device. (No code of its own: the environment of `midi.py:69-117`.) -/
abbrev Reads := Nat → List (Option Msg)

/-- `device.receive()`. (Called in `midi.py:75, 96`.) -/
def Reads.receive (q : Reads) (d : Nat) : Option Msg × Reads :=
  match q d with
  | [] => (none, q)
  | a :: rest => (a, fun x => if x = d then rest else q x)

/-- `midi.py:60`. -/
def fromAppl (rs : List Routing) : List Routing := rs.filter (fun r => r.source == none)
/-- `midi.py:61`. -/
def toAppl (rs : List Routing) : List Routing := rs.filter (fun r => r.target == none)
/-- `midi.py:62`. -/
def external (rs : List Routing) : List Routing := rs.filter (fun r => r.source != none && r.target != none)

/-- `midi.py:64-67` `send`, the loop. The flag tells if the call returned normally: a routing from the
application to itself calls `send` on the integer `APPLICATION`, which raises an `AttributeError`. -/
def sendLoop (msg : Msg) : List Routing → List Eff × Bool
  | [] => ([], true)
  | r :: rs =>
    match r.target with
    | none => ([], false)
    | some t =>
      let rest := sendLoop msg rs
      (.send t msg :: rest.1, rest.2)

/-- `midi.py:64-67` `send`. -/
def send (rs : List Routing) (msg : Msg) : List Eff × Bool := sendLoop msg (fromAppl rs)

/-- `midi.py:109-113`: unknown events and messages without status (bad events) are not forwarded. -/
def forwardable : Msg → Bool
  | .unknown _ => false
  | .bad _ => false
  | _ => true

/-- `midi.py:87-96`: read each distinct source once. `got` are the parallel lists `sources`/`results`.
External routings never have the application as source. -/
def collect : List Routing → List (Nat × Option Msg) → Reads → List (Nat × Option Msg) × Reads × List Eff
  | [], got, q => (got, q, [])
  | r :: rs, got, q =>
    match r.source with
    | none => collect rs got q        -- not reachable for external routings
    | some s =>
      if got.any (fun g => g.1 == s) then collect rs got q
      else
        let a := q.receive s
        let rest := collect rs (got ++ [(s, a.1)]) a.2
        (rest.1, rest.2.1, .read s a.1 false :: rest.2.2)

/-- `midi.py:100-117`: the inner loop over the sources for one routing. -/
def distributeOne (s t : Nat) : List (Nat × Option Msg) → List Eff
  | [] => []
  | (s', a) :: rest =>
    if s' ≠ s then distributeOne s t rest
    else match a with
      | none => distributeOne s t rest
      | some m => if forwardable m then [.send t m] else distributeOne s t rest

/-- `midi.py:99-117`: distribute the messages. -/
def distribute (got : List (Nat × Option Msg)) : List Routing → List Eff
  | [] => []
  | r :: rs =>
    (match r.source, r.target with
      | some s, some t => distributeOne s t got
      | _, _ => [])                   -- not reachable for external routings
    ++ distribute got rs

/-- `midi.py:82-117` `__process_external_routings`. -/
def processExternal (rs : List Routing) (q : Reads) : Reads × List Eff :=
  let c := collect (external rs) [] q
  (c.2.1, c.2.2 ++ distribute c.1 (external rs))

/-- `midi.py:74-79`: the loop over the routings to the application. `some x` is a normal return of `x`
(`none` in it: nothing received), `none` an exception (routing from the application to itself). -/
def applLoop : List Routing → Reads → Option (Option Msg) × Reads × List Eff
  | [], q => (some none, q, [])
  | r :: rs, q =>
    match r.source with
    | none => (none, q, [])
    | some s =>
      let a := q.receive s
      match a.1 with
      | some m => (some (some m), a.2, [.read s (some m) true])
      | none =>
        let rest := applLoop rs a.2
        (rest.1, rest.2.1, .read s none true :: rest.2.2)

/-- `midi.py:69-79` `receive`. -/
def receive (rs : List Routing) (q : Reads) : Option (Option Msg) × Reads × List Eff :=
  let e := processExternal rs q
  let a := applLoop (toAppl rs) e.1
  (a.1, a.2.1, e.2 ++ a.2.2)

/-- `n` successive `receive()` calls: their answers, the remaining reads, all effects.
(No code of its own: repeated `midi.py:69-79`.) -/
def receives (rs : List Routing) : Nat → Reads → List (Option (Option Msg)) × Reads × List Eff
  | 0, q => ([], q, [])
  | n + 1, q =>
    let r := receive rs q
    let rest := receives rs n r.2.1
    (r.1 :: rest.1, rest.2.1, r.2.2 ++ rest.2.2)

end PySwitch.Routing
