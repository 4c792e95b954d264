import Verif.Model.Mapping
import Verif.Model.Misc
/-
Model of `Client`, `ClientRequest` and `BidirectionalClient`
(`content/lib/pyswitch/controller/client.py:235-585`).

Mappings are identified by numbers (object identity; see C20), listeners too. External listeners get their
calls as effects; they do not call the client in return (no listener in the code base does so from
`parameter_changed` or `request_terminated`). Each call of a method takes one clock reading.
An exception ends the main loop of the application, so the state after it does not matter.
Debug output and statistics are not modelled.
-/
namespace PySwitch.Client
open PySwitch.Wire PySwitch.Mapping

/-- A listener: an external one, or the `_DependencyListener` of a mapping (there is at most one for each
mapping, `client.py:318-320`). -/
inductive Lst where
  | ext (listener : Nat)
  | dep (orig : Nat)
deriving Repr, DecidableEq

/-- Calls to the outside. `changed` is `parameter_changed`, with the value of the mapping at that time,
`terminated` is `request_terminated`. `raised` is an exception leaving a method after other effects.
(`client.py:246-250, 291-325, 455-461, 502-517`.) -/
inductive Eff where
  | send (m : Msg)
  | changed (listener mapping : Nat) (value : Option Val)
  | terminated (listener mapping : Nat)
  | raised (e : PyErr)
deriving Repr, DecidableEq

/-- `client.py:430-453` `ClientRequest`. `listeners = none` is a finished request (line 473). -/
structure Req where
  mapping : Nat
  listeners : Option (List Lst)
  lifetime : Option PeriodCounter
deriving Repr, DecidableEq

/-- `client.py:239-244` `_DependencyListener` of the mapping `orig`. -/
structure Dep where
  orig : Nat
  last : Option Val := none
  listener : Option Nat
deriving Repr, DecidableEq

/-- `client.py:257-278`. `mappings` are the mapping objects. `isCallback` tells which external listeners are
`Callback` objects. -/
structure State where
  mappings : Nat → Mapping
  requests : List Req := []
  deps : List Dep := []
  maxLifetime : Nat := 2000
  cleanup : PeriodCounter
  isCallback : Nat → Bool := fun _ => true

/-- `client.py:257-278` the constructor; `PeriodCounter(max_request_lifetime / 2)` truncates. -/
def initial (mappings : Nat → Mapping) (maxLifetime : Nat) (isCallback : Nat → Bool) : State :=
  { mappings, maxLifetime, cleanup := ⟨maxLifetime / 2, 0⟩, isCallback }

/-- Change one mapping object. (No code of its own: mapping objects are shared by reference.) -/
def State.setMapping (st : State) (mid : Nat) (m : Mapping) : State :=
  { st with mappings := fun i => if i = mid then m else st.mappings i }

/-- `client.py:455-461` `ClientRequest.send`. -/
def sendField : MsgField → List Eff
  | .none => []
  | .one m => [.send m]
  | .many ms => ms.filterMap (fun m => m.map Eff.send)

/-- `misc.py:96-101` `add_listener` of a request. For a finished request `listener in None` raises. -/
def addListener (r : Req) (l : Lst) : Except PyErr Req :=
  match r.listeners with
  | none => .error .typeError
  | some ls => .ok (if l ∈ ls then r else { r with listeners := some (ls ++ [l]) })

/-- `client.py:397-402` `get_matching_request` (the position). -/
def findReq (mid : Nat) : List Req → Option Nat
  | [] => none
  | r :: rs => if r.mapping = mid then some 0 else (findReq mid rs).map (· + 1)

/-- `client.py:352-357` `__create_request` and `client.py:433-453`. -/
def createRequest (st : State) (now : Int) (mid : Nat) (l : Option Lst) : Req :=
  let life := if (st.mappings mid).request.truthy then st.maxLifetime else 0
  { mapping := mid, listeners := some l.toList,
    lifetime := if life > 0 then some ⟨life, now⟩ else none }

/-- `client.py:329-349` `_register_mapping`. -/
def registerMapping (st : State) (now : Int) (mid : Nat) (l : Option Lst) (send : Bool) :
    Except PyErr (State × List Eff) :=
  match findReq mid st.requests with
  | none =>
    .ok ({ st with requests := st.requests ++ [createRequest st now mid l] },
         if send then sendField (st.mappings mid).request else [])
  | some i =>
    match l, st.requests[i]? with
    | some l, some r =>
      match addListener r l with
      | .error e => .error e
      | .ok r' => .ok ({ st with requests := st.requests.set i r' }, [])
    | _, _ => .ok (st, [])

/-- `client.py:246-250` `_DependencyListener.parameter_changed`; `src` is the mapping which has changed. -/
def depChanged (st : State) (now : Int) (orig src : Nat) : Except PyErr (State × List Eff) :=
  match st.deps.find? (fun d => d.orig == orig) with
  | none => .ok (st, [])
  | some d =>
    if (st.mappings src).value ≠ d.last then
      registerMapping
        { st with deps := st.deps.map (fun d =>
            if d.orig = orig then { d with last := (st.mappings src).value } else d) }
        now orig (d.listener.map .ext) true
    else .ok (st, [])

/-- `client.py:502-503` the loop calling the listeners. Simplification: the list is not changed while it is
iterated (no mapping depends on itself). -/
def notify (st : State) (now : Int) (src : Nat) : List Lst → Except PyErr (State × List Eff)
  | [] => .ok (st, [])
  | .ext n :: ls =>
    match notify st now src ls with
    | .error e => .error e
    | .ok (st', es) => .ok (st', .changed n src (st.mappings src).value :: es)
  | .dep o :: ls =>
    match depChanged st now o src with
    | .error e => .error e
    | .ok (st', es) =>
      match notify st' now src ls with
      | .error e => .error e
      | .ok (st'', es') => .ok (st'', es ++ es')

/-- `client.py:505-507`: clear the listeners of the request at position `i` if it has a life time. -/
def closeReq (st : State) (i : Nat) : State :=
  match st.requests[i]? with
  | none => st
  | some r => if r.lifetime.isSome then { st with requests := st.requests.set i { r with listeners := none } } else st

/-- `client.py:482-509` `ClientRequest.parse` for the request at position `i`. The last component is the
answer. -/
def parseReq (st : State) (now : Int) (i : Nat) (msg : Msg) : Except PyErr (State × List Eff × Bool) :=
  match st.requests[i]? with
  | none => .ok (st, [], false)
  | some r =>
    if !(st.mappings r.mapping).response.truthy then .ok (st, [], false)
    else
      match r.listeners with
      | none => .ok (st, [], false)
      | some ls =>
        match parse (st.mappings r.mapping) msg with
        | .error e => .error e
        | .ok (false, m') => .ok (st.setMapping r.mapping m', [], false)
        | .ok (true, m') =>
          if !resultFinished m' then .ok (st.setMapping r.mapping m', [], false)
          else
            match notify (st.setMapping r.mapping m') now r.mapping ls with
            | .error e => .error e
            | .ok (st', es) => .ok (closeReq st' i, es, true)

/-- `client.py:377-382`: the loop over the requests. The list may grow while it is iterated (line 339 by a
dependency listener), so the loop goes by position. Each new request belongs to the mapping of a dependency
listener, hence the number of iterations is bounded and `fuel` is the number of requests and dependency
listeners at the beginning (see `Lemmas/Client.lean`, `receiveLoop_end`). -/
def receiveLoop (now : Int) (msg : Msg) : Nat → State → Nat → Except PyErr (State × List Eff × Bool)
  | 0, st, _ => .ok (st, [], false)
  | fuel + 1, st, i =>
    if i < st.requests.length then
      match parseReq st now i msg with
      | .error e => .error e
      | .ok (st', es, b) =>
        match receiveLoop now msg fuel st' (i + 1) with
        | .error e => .error e
        | .ok (st'', es', b') => .ok (st'', es ++ es', b || b')
    else .ok (st, [], false)

/-- `client.py:405-406` `__cleanup_requests`. -/
def cleanupRequests (st : State) : State :=
  { st with requests := st.requests.filter (fun r => r.listeners.isSome) }

/-- The external listeners among listeners, in order. (No code of its own: see `Lst`.) -/
def extOf (ls : List Lst) : List Nat :=
  ls.filterMap (fun l => match l with | .ext n => some n | .dep _ => none)

/-- `client.py:515-517` `notify_terminated`: the listeners are called (dependency listeners do nothing, line
253). `Callback` listeners reset the value of the mapping (`controller/callbacks/__init__.py:51-57`). -/
def notifyTerminated (st : State) (r : Req) : State × List Eff :=
  match r.listeners with
  | none => (st, [])
  | some ls =>
    let st' := if (extOf ls).any st.isCallback
      then st.setMapping r.mapping { st.mappings r.mapping with value := none } else st
    (st', (extOf ls).map (fun n => .terminated n r.mapping))

/-- `client.py:412-413`: has the request waited too long? -/
def expired (now : Int) (r : Req) : Bool :=
  match r.lifetime with
  | none => false
  | some p => (p.exceeded now).1

/-- `client.py:411-413`: the loop terminating requests, starting with the given ones. The termination sets
the listeners to `None` (line 473). -/
def terminateLoop (now : Int) : List Req → State → State × List Eff × List Req
  | [], st => (st, [], [])
  | r :: rs, st =>
    if expired now r then
      let t := notifyTerminated st r
      let rest := terminateLoop now rs t.1
      (rest.1, t.2 ++ rest.2.1, { r with listeners := none } :: rest.2.2)
    else
      let rest := terminateLoop now rs st
      (rest.1, rest.2.1, r :: rest.2.2)

/-- `client.py:409-415` `__cleanup_hanging_requests`. -/
def cleanupHanging (st : State) (now : Int) : State × List Eff :=
  let t := terminateLoop now st.requests st
  (cleanupRequests { t.1 with requests := t.2.2 }, t.2.1)

/-- `client.py:361-392` `Client.receive`. `none` is a poll without message. -/
def receive (st : State) (now : Int) (msg : Option Msg) : Except PyErr (State × List Eff × Bool) :=
  let e := st.cleanup.exceeded now
  let st₀ : State := { st with cleanup := e.2 }
  let c : State × List Eff := if e.1 then cleanupHanging st₀ now else (st₀, [])
  match msg with
  | none => .ok (c.1, c.2, false)
  | some msg =>
    match receiveLoop now msg (c.1.requests.length + c.1.deps.length) c.1 0 with
    | .error e => .error e
    | .ok (st', es, b) => .ok (cleanupRequests st', c.2 ++ es, b)

/-- `client.py:291-310` `Client.set`. -/
def set (st : State) (mid : Nat) (value : SetVal) : Except PyErr (State × List Eff) :=
  let m := st.mappings mid
  if !m.set.truthy then .ok (st, [])
  else
    match setValue m.type m.set value with
    | .error e => .error e
    | .ok field => .ok (st.setMapping mid { m with set := field }, sendField field)

/-- `client.py:314-325` `Client.request`. -/
def request (st : State) (now : Int) (mid : Nat) (l : Option Nat) : Except PyErr (State × List Eff) :=
  let m := st.mappings mid
  if !m.request.truthy || !m.response.truthy then .ok (st, [])
  else
    match m.depends with
    | some d =>
      let st := if (st.deps.find? (fun d => d.orig == mid)).isSome then st
        else { st with deps := st.deps ++ [{ orig := mid, listener := l }] }
      registerMapping st now d (some (.dep mid)) true
    | none => registerMapping st now mid (l.map .ext) true

/-- `client.py:286-288` `Client.register`. -/
def register (st : State) (now : Int) (mid : Nat) (l : Option Nat) : Except PyErr (State × List Eff) :=
  let m := st.mappings mid
  if !m.request.truthy && m.response.truthy then registerMapping st now mid (l.map .ext) false
  else .ok (st, [])

/-- The part of a bidirectional protocol the client asks for. `⟨fun _ => false, fun _ => false⟩` gives the
plain `Client`. (`client.py:533-575`.) -/
structure Protocol where
  isBidirectional : Nat → Bool
  feedbackValue : Nat → Bool

/-- The plain client. (`client.py:253`: the class `Client` itself.) -/
def plain : Protocol := ⟨fun _ => false, fun _ => false⟩

/-- `client.py:533-538` `BidirectionalClient.register`. -/
def registerBi (P : Protocol) (st : State) (now : Int) (mid : Nat) (l : Option Nat) :
    Except PyErr (State × List Eff) :=
  let st := if P.isBidirectional mid
    then st.setMapping mid { st.mappings mid with request := .none, depends := none } else st
  register st now mid l

/-- What a set value looks like as a value of the mapping. (`client.py:563-575`.) -/
def toVal : SetVal → Val
  | .one n => .num n
  | .many ns => .list ns

/-- `client.py:511-513` `notify_listeners`. -/
def notifyListeners (st : State) (now : Int) (i : Nat) : Except PyErr (State × List Eff) :=
  match st.requests[i]? with
  | none => .ok (st, [])
  | some r =>
    match r.listeners with
    | none => .error .typeError
    | some ls => notify st now r.mapping ls

/-- `client.py:563-575` `BidirectionalClient.set`. -/
def setBi (P : Protocol) (st : State) (now : Int) (mid : Nat) (value : SetVal) :
    Except PyErr (State × List Eff) :=
  match set st mid value with
  | .error e => .error e
  | .ok (st', es) =>
    if P.feedbackValue mid then
      match findReq mid st'.requests with
      | none => .ok (st', es ++ [.raised .exception])
      | some i =>
        match notifyListeners (st'.setMapping mid { st'.mappings mid with value := some (toVal value) }) now i with
        | .error e => .error e
        | .ok (st'', es') => .ok (st'', es ++ es')
    else .ok (st', es)

/-- `client.py:582-585` `notify_connection_lost`. -/
def connectionLost (P : Protocol) (st : State) : State × List Eff :=
  st.requests.foldl (fun acc r =>
    if P.isBidirectional r.mapping then
      let t := notifyTerminated acc.1 r
      (t.1, acc.2 ++ t.2)
    else acc) (st, [])

/-- The calls a client gets. (`client.py:286-415`.) -/
inductive Op where
  | register (mid : Nat) (l : Option Nat)
  | request (mid : Nat) (l : Option Nat)
  | set (mid : Nat) (value : SetVal)
  | receive (msg : Option Msg)
  | connectionLost
deriving Repr, DecidableEq

/-- One call. (`client.py:286-415`, see `Op`.) -/
def step (P : Protocol) (st : State) (now : Int) : Op → Except PyErr (State × List Eff)
  | .register mid l => registerBi P st now mid l
  | .request mid l => request st now mid l
  | .set mid v => setBi P st now mid v
  | .receive msg =>
    match receive st now msg with
    | .error e => .error e
    | .ok (st', es, _) => .ok (st', es)
  | .connectionLost => .ok (connectionLost P st)

/-- A history of calls with clock readings: the effects of each call and the final state.
(No code of its own: a history of `step`.) -/
def run (P : Protocol) : State → List (Int × Op) → Except PyErr (State × List (List Eff))
  | st, [] => .ok (st, [])
  | st, (now, op) :: ops =>
    match step P st now op with
    | .error e => .error e
    | .ok (st', es) =>
      match run P st' ops with
      | .error e => .error e
      | .ok (st'', ess) => .ok (st'', es :: ess)

end PySwitch.Client
