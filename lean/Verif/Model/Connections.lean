import Verif.Model.DeviceController

/-!
Model of the connections of the editor to controllers (`web/htdocs/js/DeviceController.js` `connect`, with `MidiBridgeHandler.js` `connect` and
`MidiHandler.js`), and of several bridges which listen at one port.

Left out: the search for controllers (see `Model/PortScan`), and the progress display. Callbacks of bridges do not throw (those which `loadFile` and `saveFile`
set do not; the one which `connect` sets for errors, `DeviceController.js:91-94`, calls a method which does not exist, but is replaced by them).
-/

namespace PySwitch.Connections
open PySwitch.Bridge

/-- `#connection` (`DeviceController.js:9`) with its port and the number of its bridge; the listeners in the order in which they were added
(`MidiHandler.js:8`), with their port; calls of `connect` which wait for an answer; the number of bridges; and all connections made so far, in order. -/
structure State where
  connection : Option (Nat × String) := none
  listeners : List (Nat × String) := []
  pending : List (Nat × String) := []
  next : Nat := 0
  made : List (Nat × String) := []
deriving Repr, DecidableEq

/-- A call of `connect`, an answer to the bridge with this number, or its timeout. -/
inductive Ev where
  | connect (port : String)
  | answer (bridge : Nat)
  | timeout (bridge : Nat)
deriving Repr, DecidableEq

/-- `DeviceController.js:57-100` `connect`, with `MidiBridgeHandler.js:52-136` (95-108 for an answer, 110-114 for a timeout). Ports which do not exist are an
error (`MidiBridgeHandler.js:64`). -/
def State.step (ports : List String) (s : State) : Ev → State
  | .connect port =>
    if (s.connection.map Prod.snd) = some port then s
    else if port ∉ ports then { s with connection := none }
    else { s with connection := none, listeners := s.listeners ++ [(s.next, port)], pending := s.pending ++ [(s.next, port)], next := s.next + 1 }
  | .answer id =>
    match s.pending.find? fun x => x.1 == id with
    | none => s
    | some x => { s with connection := some x, pending := s.pending.filter (fun y => y.1 != id), made := s.made ++ [x] }
  | .timeout id =>
    if s.pending.any fun x => x.1 == id then
      { s with pending := s.pending.filter (fun y => y.1 != id), listeners := s.listeners.filter (fun y => y.1 != id) }
    else s

/-- A history. -/
def run (ports : List String) (es : List Ev) : State := es.foldl (State.step ports) {}

/-! ### Several bridges at one port -/

/-- A bridge of the editor gets a message (`MidiBridgeHandler.js:154-168`). The editor has no files to send. `nextId` belongs to the class
(`JsMidiBridge.js:137`). -/
def hear (now : Nat) (data : Bytes) (n : Nat) (b : Bridge) : Res := (receive (fun _ => .error []) now [0x00, 0x7c, 0x7d] data { b with nextId := n }).2

/-- `MidiHandler.js:123-127`: one after the other gets the message. When one throws, the others do not get it. The result are the number, the bridges, and what those which got the message have done. -/
def deliver (now : Nat) (data : Bytes) : Nat → List Bridge → Nat × List Bridge × List (List Eff)
  | n, [] => (n, [], [])
  | n, b :: bs =>
    let r := hear now data n b
    if r.error.isSome then (r.bridge.nextId, r.bridge :: bs, [r.effs])
    else
      let x := deliver now data r.bridge.nextId bs
      (x.1, r.bridge :: x.2.1, r.effs :: x.2.2)

/-- The bridges of the editor at a port (the last one belongs to the connection), the bridge of the device, the messages on their way, and the callbacks of the
bridge of the connection. -/
structure Link where
  bridges : List Bridge
  nextId : Nat
  device : Bridge
  toDevice : List Bytes := []
  toEditor : List Bytes := []
  told : List Eff := []
deriving DecidableEq

/-- The messages among the effects (`MidiBridgeHandler.js:78-84`). -/
def sent : List Eff → List Bytes
  | [] => []
  | .sysex d :: r => d :: sent r
  | _ :: r => sent r

/-- The path of the request which looks for a bridge (`MidiBridgeHandler.js:72`). -/
def pingPath : Str := lit "/mostlikelynotexistingfolder/ping"

/-- The request of `connect` for the last bridge (`MidiBridgeHandler.js:124`), `loadFile`, `saveFile` of the connection (`DeviceController.js:121-187`), or a
message is received. -/
inductive LinkEv where
  | ping
  | load (path : Str)
  | save (now : Nat) (path content : Str)
  | device (now : Nat)
  | editor (now : Nat)
deriving DecidableEq

/-- A call on the last bridge (`DeviceController.js:126, 163`). -/
def Link.call (l : Link) (f : Bridge → Res) : Link :=
  match l.bridges.getLast? with
  | none => l
  | some b =>
    let r := f { b with nextId := l.nextId }
    { l with bridges := l.bridges.dropLast ++ [r.bridge], nextId := r.bridge.nextId, toDevice := l.toDevice ++ sent r.effs, told := l.told ++ r.effs }

/-- One event. -/
def Link.step (files : Str → Except Str (Option Str)) (l : Link) : LinkEv → Link
  | .ping => l.call (request pingPath chunkSizeRequest)
  | .load path => l.call (loadFile path)
  | .save now path content => l.call (saveFile now path content)
  | .device now =>
    match l.toDevice with
    | [] => l
    | m :: rest =>
      let r := (receive files now [0x00, 0x7c, 0x7d] m l.device).2
      { l with device := r.bridge, toDevice := rest, toEditor := l.toEditor ++ sent r.effs }
  | .editor now =>
    match l.toEditor with
    | [] => l
    | m :: rest =>
      let x := deliver now m l.nextId l.bridges
      { l with
        bridges := x.2.1, nextId := x.1, toEditor := rest, toDevice := l.toDevice ++ sent x.2.2.flatten,
        told := l.told ++ if x.2.2.length = l.bridges.length then x.2.2.getLast?.getD [] else [] }

/-- A history. -/
def Link.run (files : Str → Except Str (Option Str)) (l : Link) (es : List LinkEv) : Link := es.foldl (Link.step files) l

end PySwitch.Connections
