import Verif.Model.Virtual

/-!
Model of the parameters of the virtual Kemper of the configuration editor
(`web/htdocs/clients/kemper/virtual/VirtualKemperParameter.js`, `VirtualKemperParameterKeys.js`,
`VirtualKemperParameterDefault.js`, `VirtualKemperParameters.js`, `VirtualKemperClient.js`), and of
PySwitch and this device, connected by two cables.

The callbacks of parameters (they set other parameters of the device, or its display) are not modelled
here: what they do to a parameter is the event `devSet` of the system.
-/

namespace PySwitch.Kemper.Virtual
open PySwitch.Wire

/-- `VirtualKemperParameterKeys.js:102-202`: `NRPNKey`, `CCKey` (with its scale) and `PCKey`. -/
inductive Key where
  | nrpn (data : List Nat)
  | cc (control : Nat) (scale : Option Nat)
  | pc
deriving Repr, DecidableEq

/-- A value: a number, or a text as character codes. The value `null` (bank preselect only) is not
modelled. (`VirtualKemperParameter.js:43-59`.) -/
inductive PVal where
  | num (n : Nat)
  | str (chars : List Nat)
deriving Repr, DecidableEq

/-- `VirtualKemperParameter.js:43-59` and `VirtualKemperParameterKeys.js:1-40`: the receive keys include
the send key at the end. -/
structure Param where
  send : Option Key
  receive : List Key
  value : PVal
  sets : List Nat := []
  noBuffer : Bool := false
deriving Repr, DecidableEq

/-- `VirtualKemperParameterKeys.js:11-40`: the constructor of the keys. -/
def keys (send : Option Key) (receive : List Key) : List Key := receive ++ send.toList

/-- `VirtualKemperParameter.js:83-100`: the function codes for requesting and setting (those for
returning are those for setting). The options which override them are not modelled. -/
def requestCode : PVal → Nat
  | .num _ => 65
  | .str _ => 67

/-- `VirtualKemperParameter.js:83-100`. -/
def setCode : PVal → Nat
  | .num _ => 1
  | .str _ => 3

/-- `VirtualKemperParameterKeys.js:134-152`: `NRPNKey.encodeValue`. -/
def encode : PVal → List Nat
  | .num n => [n / 128, n % 128]
  | .str cs => cs ++ [0]

/-- `VirtualKemperParameterKeys.js:118-129`: `NRPNKey.evaluateValue`, by the type of the current value.
(Missing bytes would give `NaN`; here they are 0.) -/
def evaluate (old : PVal) (data : List Nat) : PVal :=
  match old with
  | .num _ => .num (data.getD 0 0 * 128 + data.getD 1 0)
  | .str _ => .str data

/-- `VirtualKemperParameter.js:228-257`: `send`, with `VirtualKemperParameterKeys.js:176-181`. A text is never sent by CC or PC. -/
def Param.bytes (p : Param) : List (List Nat) :=
  match p.send, p.value with
  | none, _ => []
  | some (.nrpn data), v => [[240, 0, 32, 51, 0, 0, setCode v, 0] ++ data ++ encode v ++ [247]]
  | some (.cc c scale), .num n => [[176, c, match scale with | some k => n / k | none => n]]
  | some .pc, .num n => [[192, n]]
  | some _, .str _ => []

/-- `VirtualKemperParameter.js:203-223`: `setValue`, with the messages which are sent; `none` is the
exception for the wrong type. `set` is the active parameter set. -/
def Param.setValue (p : Param) (set : Option Nat) (v : PVal) : Option (Param × List (List Nat)) :=
  if p.noBuffer = false ∧ p.value = v then some (p, [])
  else
    match p.value, v with
    | .num _, .str _ => none
    | .str _, .num _ => none
    | _, _ =>
      let p := { p with value := v }
      some (p, if set.any (fun s => p.sets.contains s) then p.bytes else [])

/-- What a message does to a parameter. (`VirtualKemperParameter.js:133-198`.) -/
inductive Hit where
  | request
  | set (v : PVal)
deriving Repr, DecidableEq

/-- `VirtualKemperParameter.js:133-198`: `#parseKey`, without the effects. -/
def hitKey (productType : Nat) (value : PVal) (message : List Nat) : Key → Option Hit
  | .nrpn data =>
    if message.take (8 + data.length) = [240, 0, 32, 51, productType, 127, requestCode value, 0] ++ data then
      some .request
    else if message.take (8 + data.length) = [240, 0, 32, 51, productType, 127, setCode value, 0] ++ data then
      some (.set (evaluate value (slice message (8 + data.length) (message.length - 1))))
    else none
  | .cc control scale =>
    if message.take 2 = [176, control] then
      some (.set (.num (message.getD 2 0 * scale.getD 1)))
    else none
  | .pc => if message.head? = some 192 then some (.set (.num (message.getD 1 0))) else none

/-- `VirtualKemperParameter.js:118-128`: the first key which fits. -/
def Param.hit (productType : Nat) (p : Param) (message : List Nat) : Option Hit :=
  p.receive.findSome? (hitKey productType p.value message)

/-- `VirtualKemperParameter.js:133-198`: the effects of `#parseKey` on one parameter which fits. An exception (wrong type)
is caught by `VirtualKemperClient.js:195-198`: nothing happens. -/
def Param.apply (set : Option Nat) (p : Param) : Hit → Param × List (List Nat)
  | .request => (p, p.bytes)
  | .set v => (p.setValue set v).getD (p, [])

/-- `VirtualKemperParameters.js:46-55`: the first parameter which fits gets the message. -/
def parseEntries (productType : Nat) (set : Option Nat) (message : List Nat) :
    List Param → Option (List Param × List (List Nat))
  | [] => none
  | p :: ps =>
    match p.hit productType message with
    | some h => let r := p.apply set h; some (r.1 :: ps, r.2)
    | none => (parseEntries productType set message ps).map fun r => (p :: r.1, r.2)

/-- `VirtualKemperParameters.js:84-123`: `get`, by the send key: the parameters, with a new one if
necessary. (The program compares the id, which leaves out the scale of a CC key and which is made of the
receive keys if there is no send key. Such parameters take the message before the defaults are asked,
except a text parameter without send key which is requested as number: here a new one is created.) -/
def ensure (ps : List Param) (key : Key) : List Param :=
  if ps.any (fun p => p.send == some key) then ps
  else ps ++ [{ send := some key, receive := [key], value := .num 0 }]

/-- The messages of the parameter with the send key. (`VirtualKemperParameter.js:228-257`.) -/
def sendOf (ps : List Param) (key : Key) : List (List Nat) :=
  ((ps.find? fun p => p.send == some key).map Param.bytes).getD []

/-- `VirtualKemperParameterDefault.js:6-64`: the default for numbers (`value = .num 0`) or texts. For a
message setting an unknown parameter it is created and parses the message itself; this is an exception
(nothing more happens) if it does not fit. -/
def parseDefault (productType : Nat) (set : Option Nat) (value : PVal) (ps : List Param) (message : List Nat) :
    Option (List Param × List (List Nat)) :=
  let created (key : Key) : List Param × List (List Nat) :=
    let ps := ensure ps key
    let go := ps.map fun p =>
      if p.send = some key then
        match p.hit productType message with
        | some h => p.apply set h
        | none => (p, [])
      else (p, [])
    (go.map Prod.fst, (go.map Prod.snd).flatten)
  if message.take 8 = [240, 0, 32, 51, productType, 127, requestCode value, 0] then
    let key := Key.nrpn (slice message 8 10)
    some (ensure ps key, sendOf (ensure ps key) key)
  else if message.take 8 = [240, 0, 32, 51, productType, 127, setCode value, 0] then
    some (created (.nrpn (slice message 8 10)))
  else if message.head? = some 176 then some (created (.cc (message.getD 1 0) none))
  else if message.head? = some 192 then some (created .pc)
  else none

/-- `VirtualKemperParameters.js:46-68` with the defaults of `VirtualKemperClientSetup.js:22-23`: `parse`.
Messages which nobody knows are ignored (`VirtualKemperClient.js:191-193`). -/
def parseParams (productType : Nat) (set : Option Nat) (ps : List Param) (message : List Nat) :
    List Param × List (List Nat) :=
  match parseEntries productType set message ps with
  | some r => r
  | none =>
    match parseDefault productType set (.num 0) ps message with
    | some r => r
    | none => (parseDefault productType set (.str []) ps message).getD (ps, [])

/-- `VirtualKemperParameters.js:140-148` and `VirtualKemperProtocol.js:117-126`: all parameters of a set
are sent. -/
def setMessages (ps : List Param) (set : Nat) : List (List Nat) :=
  (ps.filter fun p => p.sets.contains set).flatMap Param.bytes

/-- `VirtualKemperClient.js:183-199`: `doSend`, a message arrives at the device. -/
def receive (d : State) (ps : List Param) (now : Int) (message : List Nat) :
    State × List Param × List (List Nat) :=
  let r := parse (setMessages ps) d now message
  if r.2.2 then (r.1, ps, r.2.1)
  else
    let q := parseParams d.productType d.parameterSet ps message
    (d, q.1, q.2)

end PySwitch.Kemper.Virtual

namespace PySwitch.Kemper.Synced
open PySwitch.Wire PySwitch.Kemper.Protocol PySwitch.Mapping

/-- PySwitch (client and protocol), the device, and the messages on the cables.
(No code of its own: both sides and the cables.) -/
structure Sys where
  py : BiState
  dev : Virtual.State
  params : List Virtual.Param
  toDev : List (List Nat) := []
  toPy : List (List Nat) := []

/-- What can happen: PySwitch does something (a component registers for a parameter, requests or sets it,
or the client is updated), or receives the next message; the device is updated, receives the next
message, a value is changed at the device, or it sends something else. (No code of its own: see `Sys`.) -/
inductive Ev where
  | py (op : BiOp)
  | pyReceive
  | devUpdate
  | devReceive
  | devSet (index : Nat) (v : Virtual.PVal)
  | devSend (bytes : List Nat)
deriving Repr, DecidableEq

/-- The bytes of the messages which PySwitch sends. (`web/htdocs/python/adafruit_midi/__init__.py:148-170`.) -/
def wire (es : List Client.Eff) : List (List Nat) :=
  es.filterMap fun
    | .send m => some (toBytes 0 m)
    | _ => none

/-- One event; exceptions of PySwitch end the history.
(`VirtualKemperClient.js:183-199`, `controller/client.py:361-392, 523-585`.) -/
def step (P : Client.Protocol) (s : Sys) (now : Int) : Ev → Except PyErr Sys
  | .py op =>
    match biStep P s.py now op with
    | .error e => .error e
    | .ok r => .ok { s with py := r.1, toDev := s.toDev ++ wire r.2 }
  | .pyReceive =>
    match s.toPy with
    | [] => .ok s
    | b :: rest =>
      match (fromMessageBytes [0] b).1 with
      | none => .ok { s with toPy := rest }
      | some m =>
        match biStep P s.py now (.receive (some m)) with
        | .error e => .error e
        | .ok r => .ok { s with py := r.1, toPy := rest, toDev := s.toDev ++ wire r.2 }
  | .devUpdate =>
    let r := Virtual.update s.dev now
    .ok { s with dev := r.1, toPy := s.toPy ++ r.2 }
  | .devReceive =>
    match s.toDev with
    | [] => .ok s
    | b :: rest =>
      let r := Virtual.receive s.dev s.params now b
      .ok { s with dev := r.1, params := r.2.1, toDev := rest, toPy := s.toPy ++ r.2.2 }
  | .devSet i v =>
    match s.params[i]? with
    | none => .ok s
    | some p =>
      match p.setValue s.dev.parameterSet v with
      | none => .ok s
      | some r => .ok { s with params := s.params.set i r.1, toPy := s.toPy ++ r.2 }
  | .devSend bytes => .ok { s with toPy := s.toPy ++ [bytes] }

/-- A history. (No code of its own: a history of `step`.) -/
def run (P : Client.Protocol) : Sys → List (Int × Ev) → Except PyErr Sys
  | s, [] => .ok s
  | s, (now, e) :: es =>
    match step P s now e with
    | .error e => .error e
    | .ok s' => run P s' es

end PySwitch.Kemper.Synced
