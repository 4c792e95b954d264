/-
Model of the MIDI wire format code in `web/htdocs/python/adafruit_midi` (Python source of the library
PySwitch uses for reading and writing MIDI). Line numbers refer to the files of that folder.
Bytes are natural numbers; only values below 256 occur on the wire.
-/
namespace PySwitch.Wire

/-- A MIDI message object. `channel = none` is a message whose channel has not been set.
`control_change.py:25-43`, `program_change.py:25-40`, `system_exclusive.py:25-44`,
`midi_message.py:325-360` (`MIDIUnknownEvent`, `MIDIBadEvent`). -/
inductive Msg where
  | cc (control value : Nat) (channel : Option Nat)
  | pc (patch : Nat) (channel : Option Nat)
  | sysex (manufacturer data : List Nat)
  | unknown (status : Nat)
  | bad (bytes : List Nat)
deriving Repr, DecidableEq

/-- `midi_message.py:115-117` property `channel`. Only channel messages set it. -/
def Msg.channel : Msg → Option Nat
  | .cc _ _ ch => ch
  | .pc _ ch => ch
  | _ => none

/-- `__bytes__` of the message classes with the channel applied by `MIDI.send` (`adafruit_midi/__init__.py:148-170`):
`control_change.py:45-48`, `program_change.py:42-43`, `system_exclusive.py:46-52`. Unknown and bad events
are never serialised by the application (they are filtered before `send`); the model returns nothing. -/
def toBytes (channel : Nat) : Msg → List Nat
  | .cc control value _ => [0xB0 ||| (channel &&& 0x0F), control, value]
  | .pc patch _ => [0xC0 ||| (channel &&& 0x0F), patch]
  | .sysex manufacturer data => [0xF0] ++ manufacturer ++ data ++ [0xF7]
  | .unknown _ => []
  | .bad _ => []

/-- The registered message classes, in the order in which `register_message_type`
(`midi_message.py:128-141`, more specific masks first) keeps them when the classes imported by
`controller/midi.py:6-10` are registered: SysEx (mask 0xFF), CC and PC (mask 0xF0). -/
inductive MsgClass where
  | sysex | cc | pc
deriving Repr, DecidableEq

/-- `_STATUS` of the classes. (`control_change.py:34`, `program_change.py:32`, `system_exclusive.py`.) -/
def MsgClass.status : MsgClass → Nat
  | .sysex => 0xF0 | .cc => 0xB0 | .pc => 0xC0

/-- `_STATUSMASK` of the classes. (`control_change.py:35`, `program_change.py:33`, `system_exclusive.py`.) -/
def MsgClass.mask : MsgClass → Nat
  | .sysex => 0xFF | .cc => 0xF0 | .pc => 0xF0

/-- `LENGTH` of the classes (-1: variable). (`control_change.py:36`, `program_change.py:34`, `midi_message.py`.) -/
def MsgClass.length : MsgClass → Int
  | .sysex => -1 | .cc => 3 | .pc => 2

/-- `MIDIMessage._statusandmask_to_class`. (`midi_message.py:128-141`.) -/
def registered : List MsgClass := [.sysex, .cc, .pc]

/-- Python slice `l[a:b]` for `0 <= a`, `0 <= b`. (No code of its own: Python.) -/
def slice (l : List Nat) (a b : Nat) : List Nat := (l.take b).drop a

/-- `from_bytes` of the classes (`control_change.py:50-52`, `program_change.py:45-47`,
`system_exclusive.py:54-60`) including the range checks of the constructors, whose `ValueError` is turned
into a `MIDIBadEvent` by `midi_message.py:263-269`. `l[2:-1]` is `slice l 2 (len - 1)`.
`from_message_bytes` only calls it with a complete message, so the indices exist; the last branch of each
class is not reachable. -/
def fromBytes (c : MsgClass) (b : List Nat) : Msg :=
  match c with
  | .cc =>
    match b with
    | [st, ctl, val] => if ctl ≤ 127 ∧ val ≤ 127 then .cc ctl val (some (st &&& 0x0F)) else .bad b
    | _ => .bad b
  | .pc =>
    match b with
    | [st, patch] => if patch ≤ 127 then .pc patch (some (st &&& 0x0F)) else .bad b
    | _ => .bad b
  | .sysex =>
    match b[1]? with
    | none => .bad b
    | some m =>
      if m ≠ 0 then .sysex (slice b 1 2) (slice b 2 (b.length - 1))
      else .sysex (slice b 1 4) (slice b 4 (b.length - 1))

/-- Is bit 7 set, `x & 0x80`?. (Used in `midi_message.py:145-172, 240-243`.) -/
def isStatus (x : Nat) : Bool := (x &&& 0x80) ≠ 0

/-- `midi_message.py:145-172` `_search_eom_status`: scan from `i` for a status byte. Returns
`(msgendidxplusone, good_termination, bad_termination)`. `i` is the running `msgendidxplusone`. -/
def searchEom (buf : List Nat) (eom : Nat) (i : Nat) : Nat × Bool × Bool :=
  match h : buf[i]? with
  | none => (i, false, false)                     -- loop condition `i <= endidx` fails
  | some x =>
    if isStatus x then
      if x = eom then (i + 1, true, false) else (i + 1, false, true)
    else searchEom buf eom (i + 1)
termination_by buf.length - i
decreasing_by
  have := (List.getElem?_eq_some_iff.1 h).1
  omega

/-- Result of `_match_message_status`. (`midi_message.py:175-216`.) -/
structure Match where
  cls : Option MsgClass
  known : Bool
  complete : Bool
  badTermination : Bool
  endPlusOne : Nat
deriving Repr, DecidableEq

/-- `midi_message.py:175-216` `_match_message_status` (the loop over the registered classes). -/
def matchStatus (buf : List Nat) (start endPlusOne : Nat) (status : Nat) : List MsgClass → Match
  | [] => ⟨none, false, false, false, endPlusOne⟩
  | c :: cs =>
    if c.status = status &&& c.mask then
      if ¬ ((buf.length : Int) - start ≥ c.length) then ⟨some c, true, false, false, endPlusOne⟩
      else if c.length < 0 then
        let r := searchEom buf 0xF7 (start + 1)
        ⟨some c, true, r.2.1, r.2.2, r.1⟩
      else ⟨some c, true, true, false, start + c.length.toNat⟩
    else matchStatus buf start endPlusOne status cs

/-- `midi_message.py:38-48` `channel_filter`; a channel specification is a list of accepted channels
(an `int` is a list of one). -/
def channelFilter (channel : Nat) (spec : List Nat) : Bool := spec.contains channel

/-- `midi_message.py:240-243`: skip bytes without the status bit; returns the new `msgstartidx`. -/
def skipData (buf : List Nat) (i : Nat) : Nat :=
  match h : buf[i]? with
  | none => i
  | some x => if isStatus x then i else skipData buf (i + 1)
termination_by buf.length - i
decreasing_by
  have := (List.getElem?_eq_some_iff.1 h).1
  omega

/-- `midi_message.py:220-290` `from_message_bytes`, the `while True` loop. Returns
`(msg, endplusone)`; the diagnostic count of skipped bytes is not modelled. `fuel` bounds the number of
iterations: each but the last advances `start` by at least one, so `buf.length + 1` is always enough. -/
def fromMessageLoop (spec : List Nat) (buf : List Nat) : Nat → Nat → Nat → Option Msg × Nat
  | 0, _, e => (none, e)
  | fuel + 1, start, endPlusOne =>
    let start := skipData buf start
    match buf[start]? with
    | none => (none, buf.length)                              -- `return (None, endidx + 1, skipped)`
    | some status =>
      let m := matchStatus buf start endPlusOne status registered
      match m.cls with
      | none => (some (.unknown status), start + 1)
      | some c =>
        if m.complete then
          -- `bad_termination` implies `not complete`, so the message is built whenever complete
          let msg := fromBytes c (slice buf start m.endPlusOne)
          let channelOk := match msg.channel with
            | none => true
            | some ch => channelFilter ch spec
          if channelOk then (some msg, m.endPlusOne)
          else fromMessageLoop spec buf fuel m.endPlusOne m.endPlusOne
        else (none, m.endPlusOne)

/-- `midi_message.py:220-290` `from_message_bytes`. -/
def fromMessageBytes (spec : List Nat) (buf : List Nat) : Option Msg × Nat :=
  fromMessageLoop spec buf (buf.length + 1) 0 0

/-- `adafruit_midi/__init__.py:117-146` `MIDI.receive`. `bytesIn` is what the port's `read` returns; it is only called
if there is room in the buffer (the caller respects `bytesIn.length <= bufSize - inBuf.length`).
Returns the message and the new input buffer. -/
def receive (spec : List Nat) (bufSize : Nat) (inBuf bytesIn : List Nat) : Option Msg × List Nat :=
  let buf := if inBuf.length < bufSize then inBuf ++ bytesIn else inBuf
  let r := fromMessageBytes spec buf
  if r.2 ≠ 0 then (r.1, buf.drop r.2) else (r.1, buf)

/-- A port with bytes still to be read. Each poll reads as many of them as the schedule says, but never
more than fit into the buffer. (`adafruit_midi/__init__.py:127-133`.) -/
structure Port where
  inBuf : List Nat := []
  pending : List Nat := []
deriving Repr, DecidableEq

/-- One `receive()` on a port, reading (at most) `k` pending bytes. (`adafruit_midi/__init__.py:117-146`.) -/
def Port.poll (spec : List Nat) (bufSize : Nat) (p : Port) (k : Nat) : Option Msg × Port :=
  let n := min k (bufSize - p.inBuf.length)
  let r := receive spec bufSize p.inBuf (p.pending.take n)
  (r.1, { inBuf := r.2, pending := p.pending.drop n })

/-- A sequence of polls; the messages returned (without the empty answers) and the final port.
(No code of its own: repeated `Port.poll`.) -/
def Port.polls (spec : List Nat) (bufSize : Nat) : Port → List Nat → List Msg × Port
  | p, [] => ([], p)
  | p, k :: ks =>
    let r := p.poll spec bufSize k
    let rest := r.2.polls spec bufSize ks
    (r.1.toList ++ rest.1, rest.2)

/-- `n` calls of `receive()` while nothing new arrives on the port: all answers and the final buffer.
(No code of its own: repeated `Port.poll`.) -/
def receives (spec : List Nat) (bufSize : Nat) : Nat → List Nat → List (Option Msg) × List Nat
  | 0, b => ([], b)
  | n + 1, b =>
    let r := receive spec bufSize b []
    let rest := receives spec bufSize n r.2
    (r.1 :: rest.1, rest.2)

end PySwitch.Wire
