/-
Model of `content/lib/pyswitch/misc.py` and `content/lib/pyswitch/controller/measure.py`.
Times are integer milliseconds; each call which reads the clock takes the reading as argument.
-/
namespace PySwitch

/-- `misc.py:7-12` `get_option(config, name, default)`. A Python dict is modelled as an association
list whose first entry for a key counts; `none` is a `None` config. -/
def getOption {α : Type} (config : Option (List (String × α))) (name : String) (default : α) : α :=
  match config with
  | none => default
  | some [] => default
  | some (e :: es) =>
    match (e :: es).lookup name with
    | none => default
    | some v => v

/-- Loop body of `misc.py:41-42` (`while len(ret) < n: ret += fill_char`). Strings are character lists,
the fill string is one character. -/
def fillLoop (ret : List Char) (n : Nat) (c : Char) : List Char :=
  if ret.length < n then fillLoop (ret ++ [c]) n c else ret
termination_by n - ret.length
decreasing_by simp; omega

/-- `misc.py:37-43` `fill_up_to`. -/
def fillUpTo (str : List Char) (numSpacesAtRight : Int) (fillChar : Char := ' ') : List Char :=
  if numSpacesAtRight ≤ 0 then str else fillLoop str numSpacesAtRight.toNat fillChar

/-- `misc.py:62-64` `Updater`: the list of updateables (object ids). -/
structure Updater where
  updateables : List Nat := []
deriving Repr, DecidableEq

/-- `misc.py:67-74` `Updater.add_updateable`. `isUpd` is the `isinstance(u, Updateable)` test. -/
def Updater.addUpdateable (isUpd : Nat → Bool) (s : Updater) (u : Nat) : Updater :=
  if !isUpd u then s
  else if s.updateables.contains u then s
  else { s with updateables := s.updateables ++ [u] }

/-- `misc.py:77-79` `Updater.update` (and `82-84` `reset`): the ids whose method is called, in call
order. Simplification: the called methods do not change the list while it is iterated. -/
def Updater.update (s : Updater) : List Nat :=
  s.updateables.foldl (fun calls u => calls ++ [u]) []

/-- `misc.py:91-93` `EventEmitter`. -/
structure EventEmitter where
  listeners : List Nat := []
deriving Repr, DecidableEq

/-- `misc.py:96-101` `EventEmitter.add_listener`. -/
def EventEmitter.addListener (s : EventEmitter) (l : Nat) : EventEmitter × Bool :=
  if s.listeners.contains l then (s, false)
  else ({ s with listeners := s.listeners ++ [l] }, true)

/-- The listener list and the answers of a history of `add_listener` calls.
(No code of its own: repeated `misc.py:96-101`.) -/
def addListeners : EventEmitter → List Nat → EventEmitter × List Bool
  | s, [] => (s, [])
  | s, l :: ls =>
    let r := s.addListener l
    let rest := addListeners r.1 ls
    (rest.1, r.2 :: rest.2)

/-- `misc.py:108-112` `PeriodCounter`. `interval` is the already truncated `int(interval_millis)`. -/
structure PeriodCounter where
  interval : Int
  lastReset : Int := 0
deriving Repr, DecidableEq

/-- `misc.py:115-116` `PeriodCounter.reset`. -/
def PeriodCounter.reset (p : PeriodCounter) (now : Int) : PeriodCounter :=
  { p with lastReset := now }

/-- `misc.py:119-121` `PeriodCounter.passed`. -/
def PeriodCounter.passed (p : PeriodCounter) (now : Int) : Int := now - p.lastReset

/-- `misc.py:125-131` `PeriodCounter.exceeded`: the answer and the new state. -/
def PeriodCounter.exceeded (p : PeriodCounter) (now : Int) : Bool × PeriodCounter :=
  if p.lastReset + p.interval < now then (true, { p with lastReset := now }) else (false, p)

/-- What a user of a period counter does: poll `exceeded` or call `reset`, at a clock reading. (`misc.py:108-131`.) -/
inductive PeriodEvent where
  | poll (t : Int)
  | reset (t : Int)
deriving Repr, DecidableEq

/-- One event on a period counter. The outcome of a poll is its answer (`false` for a reset). (`misc.py:108-131`.) -/
def PeriodCounter.step (p : PeriodCounter) : PeriodEvent → PeriodCounter × Bool
  | .poll t => let (b, p') := p.exceeded t; (p', b)
  | .reset t => (p.reset t, false)

/-- The observable trace of a period counter under a list of events.
(No code of its own: a history of `PeriodCounter.step`.) -/
def PeriodCounter.trace (p : PeriodCounter) : List PeriodEvent → List (PeriodEvent × Bool)
  | [] => []
  | e :: es => let (p', b) := p.step e; (e, b) :: p'.trace es

/-- `measure.py:7-14, 42-48` `RuntimeMeasurement`: `value` is the maximum, `aggr`/`num` the sum and
number of the times added up. -/
structure RuntimeMeasurement where
  intervalMillis : Int
  lastOutput : Int := 0
  value : Int := 0
  startTime : Int := 0
  endTime : Int := 0
  aggr : Int := 0
  num : Nat := 0
deriving Repr, DecidableEq

/-- `measure.py:42-48` `reset`. -/
def RuntimeMeasurement.reset (m : RuntimeMeasurement) : RuntimeMeasurement :=
  { m with value := 0, startTime := 0, endTime := 0, aggr := 0, num := 0 }

/-- `measure.py:17-21` `average`; `int(a / b)` truncates. -/
def RuntimeMeasurement.average (m : RuntimeMeasurement) : Int :=
  if m.num = 0 then 0 else Int.tdiv m.aggr m.num

/-- `measure.py:51-52` `start`. -/
def RuntimeMeasurement.start (m : RuntimeMeasurement) (now : Int) : RuntimeMeasurement :=
  { m with startTime := now }

/-- `measure.py:55-68` `finish`. -/
def RuntimeMeasurement.finish (m : RuntimeMeasurement) (now : Int) : RuntimeMeasurement :=
  if m.startTime = 0 then m
  else
    let diff := now - m.startTime
    { m with
      endTime := now
      value := if diff > m.value then diff else m.value
      aggr := m.aggr + diff
      num := m.num + 1 }

/-- `measure.py:31-39` `update`: if the output interval has passed, all listeners are called with the
measurement as it is, then it is reset. The second component is what the listeners see. -/
def RuntimeMeasurement.update (m : RuntimeMeasurement) (now : Int) :
    RuntimeMeasurement × Option RuntimeMeasurement :=
  if m.lastOutput + m.intervalMillis < now then
    let m' := { m with lastOutput := now }
    (m'.reset, some m')
  else (m, none)

/-- The calls a measurement gets, each with the clock reading. (`measure.py:31-68`.) -/
inductive MeasureEvent where
  | start (t : Int)
  | finish (t : Int)
  | update (t : Int)
deriving Repr, DecidableEq

/-- One call; the second component is what the listeners see, if they are called. (`measure.py:31-68`.) -/
def RuntimeMeasurement.step (m : RuntimeMeasurement) : MeasureEvent → RuntimeMeasurement × Option RuntimeMeasurement
  | .start t => (m.start t, none)
  | .finish t => (m.finish t, none)
  | .update t => m.update t

/-- A history: the calls with what the listeners see, and the final state.
(No code of its own: a history of `RuntimeMeasurement.step`.) -/
def RuntimeMeasurement.run : RuntimeMeasurement → List MeasureEvent →
    List (MeasureEvent × Option RuntimeMeasurement) × RuntimeMeasurement
  | m, [] => ([], m)
  | m, e :: es =>
    let r := m.step e
    let rest := run r.1 es
    ((e, r.2) :: rest.1, rest.2)

end PySwitch
