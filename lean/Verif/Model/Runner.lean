/-!
Model of starting and stopping the emulated controller in the editor (`web/htdocs/js/PySwitchRunner.js`, `web/htdocs/python/PySwitchRunner.py`).

Calls of `run()` and `stop()` are tasks which proceed from one `await` to the next one, in any order; timeouts of the engines fire at any time.

Left out: what the engine itself does (see the other models), the coverage option, and loading Pyodide.
-/

namespace PySwitch.Runner

/-- `PySwitchRunner.py:20-31`: one engine. `pending` counts the timeouts which are set and have not fired yet; `config` is the configuration which has
been imported by `init`. -/
structure Engine where
  running : Bool := false
  triggerStop : Bool := false
  pending : Nat := 0
  config : Option Nat := none
deriving Repr, DecidableEq

/-- A call: `PySwitchRunner.js:342` `stop()`, `PySwitchRunner.js:367` `run(config, dontTick)`. -/
inductive Call where
  | stop
  | run (config : Nat) (dontTick : Bool)
deriving Repr, DecidableEq

/-- Where a call is: in the loop of `stop()` (`PySwitchRunner.js:346-349`), waiting for the contents of the configuration (line 372) or for the device
(line 379), after creating the engine (lines 396-399), or at its end; `failed` is an exception. -/
inductive Phase where
  | stopping
  | reading
  | written
  | created
  | done
  | failed
deriving Repr, DecidableEq

/-- A call in progress. -/
structure Task where
  call : Call
  phase : Phase
deriving Repr, DecidableEq

/-- All engines ever created, the current one (`#runner`, `PySwitchRunner.js:8`), the configuration in the virtual file system
(`PySwitchRunner.js:375-376`), all calls, and a log of the ticks of engines (and if they worked without exception). -/
structure State where
  engines : List Engine := []
  current : Option Nat := none
  fs : Nat := 0
  tasks : List Task := []
  log : List (Nat × Bool) := []
deriving Repr, DecidableEq

/-- How the code between two `await`s ends: all well, what is awaited fails, `init` of the engine fails (such as an error in the configuration), the first
tick fails. -/
inductive Outcome where
  | ok
  | awaitFails
  | initFails
  | tickFails
deriving Repr, DecidableEq

/-- What happens: a call, a call goes on after an `await`, or the timeout of an engine fires (with or without an exception in the tick). -/
inductive Ev where
  | call (c : Call)
  | resume (task : Nat) (out : Outcome)
  | fire (engine : Nat) (ok : Bool)
deriving Repr, DecidableEq

/-- The engine with this number. (No code of its own.) -/
def State.engine (s : State) (k : Nat) : Engine := (s.engines[k]?).getD {}

/-- Change an engine. (No code of its own.) -/
def State.update (s : State) (k : Nat) (f : Engine → Engine) : State := { s with engines := s.engines.modify k f }

/-- Is there an engine to wait for? `PySwitchRunner.js:347`. -/
def State.waits (s : State) : Bool :=
  match s.current with
  | none => false
  | some k => (s.engine k).running

/-- `PySwitchRunner.js:351-353`, and then `run()` goes on to line 372. -/
def afterStop : Call → Phase
  | .stop => .done
  | .run _ _ => .reading

/-- `PySwitchRunner.js:342-353` and `PySwitchRunner.js:367-372` up to the first `await`; `PySwitchRunner.py:231-232` for the engine. -/
def State.call (s : State) (c : Call) : State :=
  match s.current with
  | none => { s with tasks := s.tasks ++ [⟨c, afterStop c⟩] }
  | some k =>
    let s := s.update k fun e => { e with triggerStop := true }
    if s.waits then { s with tasks := s.tasks ++ [⟨c, .stopping⟩] }
    else { s with current := none, tasks := s.tasks ++ [⟨c, afterStop c⟩] }

/-- `PySwitchRunner.py:55-61` `tick` inside `init`, with `PySwitchRunner.py:211-222`: the next timeout is set before the tick of the controller, and an
exception there stops the engine. -/
def State.tick (s : State) (k : Nat) (ok : Bool) : State :=
  if !(s.engine k).triggerStop then
    { (s.update k fun e => { e with pending := e.pending + 1, triggerStop := !ok }) with log := s.log ++ [(k, ok)] }
  else s.update k fun e => { e with running := false }

/-- `PySwitchRunner.js:401-407` with `PySwitchRunner.py:34-64` `run` and `init`: the current engine (which may be another one by now) imports the
configuration from the file system and begins. Without a current engine this is a `TypeError`. -/
def State.start (s : State) (dontTick : Bool) (out : Outcome) : State × Phase :=
  match s.current with
  | none => (s, .failed)
  | some k =>
    let s := if dontTick then s else s.update k fun e => { e with running := true, triggerStop := false }
    if out = .initFails then (s, .failed)
    else
      let s := s.update k fun e => { e with config := some s.fs }
      if (s.engine k).running then (s.tick k (out ≠ .tickFails), if out = .tickFails then .failed else .done) else (s, .done)

/-- The call goes on. `PySwitchRunner.js:346-351` for `stop()`; 372-379, 379-384, 384-407 for `run()`. -/
def State.resume (s : State) (t : Task) (out : Outcome) : State × Phase :=
  match t.phase, t.call with
  | .stopping, c => if s.waits then (s, .stopping) else ({ s with current := none }, afterStop c)
  | .reading, .run cfg _ => if out = .awaitFails then (s, .failed) else ({ s with fs := cfg }, .written)
  | .written, .run _ _ =>
    if out = .awaitFails then (s, .failed) else ({ s with engines := s.engines ++ [{}], current := some s.engines.length }, .created)
  | .created, .run _ dontTick => if out = .awaitFails then (s, .failed) else s.start dontTick out
  | p, _ => (s, p)

/-- One event. Timeouts which are not set and calls which do not exist do nothing. -/
def State.step (s : State) : Ev → State
  | .call c => s.call c
  | .resume i out =>
    match s.tasks[i]? with
    | none => s
    | some t =>
      let r := s.resume t out
      { r.1 with tasks := r.1.tasks.set i { t with phase := r.2 } }
  | .fire k ok => if (s.engine k).pending = 0 then s else (s.update k fun e => { e with pending := e.pending - 1 }).tick k ok

/-- A history. -/
def run (es : List Ev) : State := es.foldl State.step {}

end PySwitch.Runner
