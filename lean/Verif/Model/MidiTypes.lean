import Verif.Model.Wire
/-!
Model of all message types of the MIDI library (`web/htdocs/python/adafruit_midi`), for any selection of types which are imported
(`content/lib/pyswitch/controller/midi.py:5-18` imports three of them, the others are there to be switched on for forwarding). Line numbers refer to
the files of that folder. Bytes are natural numbers below 256. `skipData`, `searchEom` and `slice` are the ones of `Model/Wire.lean`.
-/
namespace PySwitch.MidiTypes
open PySwitch.Wire (isStatus skipData searchEom slice channelFilter)

/-- The message types. -/
inductive Cls where
  | noteOff | noteOn | keyPressure | cc | pc | chanPressure | bend
  | sysex | mtc | clock | start | continue | stop | sensing
deriving Repr, DecidableEq

/-- All of them. (No code of its own.) -/
def allCls : List Cls :=
  [.noteOff, .noteOn, .keyPressure, .cc, .pc, .chanPressure, .bend, .sysex, .mtc, .clock, .start, .continue, .stop, .sensing]

/-- `_STATUS`. (`note_off.py:35`, `note_on.py:36`, `polyphonic_key_pressure.py:34`, `control_change.py:34`, `program_change.py:32`,
`channel_pressure.py:32`, `pitch_bend.py:33`, `system_exclusive.py:36`, `mtc_quarter_frame.py:46`, `timing_clock.py:34`, `start.py:28`,
`midi_continue.py:30`, `stop.py:28`, `active_sensing.py:32`.) -/
def Cls.status : Cls → Nat
  | .noteOff => 0x80 | .noteOn => 0x90 | .keyPressure => 0xA0 | .cc => 0xB0 | .pc => 0xC0 | .chanPressure => 0xD0 | .bend => 0xE0
  | .sysex => 0xF0 | .mtc => 0xF1 | .clock => 0xF8 | .start => 0xFA | .continue => 0xFB | .stop => 0xFC | .sensing => 0xFE

/-- `_STATUSMASK`. (The line after the one of `_STATUS`.) -/
def Cls.mask : Cls → Nat
  | .noteOff => 0xF0 | .noteOn => 0xF0 | .keyPressure => 0xF0 | .cc => 0xF0 | .pc => 0xF0 | .chanPressure => 0xF0 | .bend => 0xF0
  | .sysex => 0xFF | .mtc => 0xFF | .clock => 0xFF | .start => 0xFF | .continue => 0xFF | .stop => 0xFF | .sensing => 0xFF

/-- `LENGTH`. (The second line after the one of `_STATUS`.) -/
def Cls.length : Cls → Int
  | .noteOff => 3 | .noteOn => 3 | .keyPressure => 3 | .cc => 3 | .pc => 2 | .chanPressure => 2 | .bend => 3
  | .sysex => -1 | .mtc => 2 | .clock => 1 | .start => 1 | .continue => 1 | .stop => 1 | .sensing => 1

/-- Types of channel messages with two data bytes. -/
inductive Two where
  | noteOff | noteOn | keyPressure | cc
deriving Repr, DecidableEq

/-- Types of channel messages with one data byte. -/
inductive One where
  | pc | chanPressure
deriving Repr, DecidableEq

/-- Types of messages without data. -/
inductive Single where
  | clock | start | continue | stop | sensing
deriving Repr, DecidableEq

def Two.cls : Two → Cls
  | .noteOff => .noteOff | .noteOn => .noteOn | .keyPressure => .keyPressure | .cc => .cc

def One.cls : One → Cls
  | .pc => .pc | .chanPressure => .chanPressure

def Single.cls : Single → Cls
  | .clock => .clock | .start => .start | .continue => .continue | .stop => .stop | .sensing => .sensing

/-- A message. Simplified: `MIDI.send` sets the attribute `channel` of messages without channel too, which has no effect. -/
inductive Msg where
  | two (t : Two) (a b : Nat) (channel : Option Nat)
  | one (t : One) (a : Nat) (channel : Option Nat)
  | bend (value : Nat) (channel : Option Nat)
  | sysex (manufacturer data : List Nat)
  | mtc (type value : Nat)
  | single (t : Single)
  | unknown (status : Nat)
  | bad (bytes : List Nat)
deriving Repr, DecidableEq

/-- `midi_message.py:114-119` `channel`. -/
def Msg.channel : Msg → Option Nat
  | .two _ _ _ ch => ch
  | .one _ _ ch => ch
  | .bend _ ch => ch
  | _ => none

/-- `msg.channel = channel`. (`__init__.py:156-158`.) -/
def Msg.setChannel (ch : Nat) : Msg → Msg
  | .two t a b _ => .two t a b (some ch)
  | .one t a _ => .one t a (some ch)
  | .bend v _ => .bend v (some ch)
  | m => m

/-- `__bytes__`, with the channel. (`note_off.py:48-55`, `note_on.py:49-52`, `polyphonic_key_pressure.py:45-48`, `control_change.py:45-48`,
`program_change.py:42-43`, `channel_pressure.py:42-43`, `pitch_bend.py:43-50`, `system_exclusive.py:46-52`, `mtc_quarter_frame.py:57-63`,
`midi_message.py:294-297`.) Unknown and bad events are never sent. -/
def toBytes (ch : Nat) : Msg → List Nat
  | .two t a b _ => [t.cls.status ||| (ch &&& 0x0F), a, b]
  | .one t a _ => [t.cls.status ||| (ch &&& 0x0F), a]
  | .bend v _ => [Cls.bend.status ||| (ch &&& 0x0F), v &&& 0x7F, (v >>> 7) &&& 0x7F]
  | .sysex m d => [Cls.sysex.status] ++ m ++ d ++ [0xF7]
  | .mtc t v => [Cls.mtc.status, (t <<< 4) + v]
  | .single t => [t.cls.status]
  | .unknown _ => []
  | .bad _ => []

/-- `register_message_type`: insertion before the first type with a smaller mask. (`midi_message.py:127-141`.) For any type of classes. -/
def register {α : Type} (mask : α → Nat) (c : α) : List α → List α
  | [] => [c]
  | x :: xs => if mask c > mask x then c :: x :: xs else x :: register mask c xs

/-- `_statusandmask_to_class` after the types have been imported in that order. (Last line of each file.) -/
def registry {α : Type} (mask : α → Nat) (imports : List α) : List α := imports.foldl (fun r c => register mask c r) []

/-- Channel messages with two data bytes. (`from_bytes`: `note_off.py:57-59`, `note_on.py:54-56`, `polyphonic_key_pressure.py:50-52`,
`control_change.py:50-52`; the checks of the constructors: `note_off.py:45-46`, `note_on.py:46-47`, `polyphonic_key_pressure.py:42-43`,
`control_change.py:42-43`. Notes given as numbers are not changed by `note_parser`.) -/
def fromTwo (t : Two) (b : List Nat) : Msg :=
  match b with
  | [st, x, y] => if x ≤ 127 ∧ y ≤ 127 then .two t x y (some (st &&& 0x0F)) else .bad b
  | _ => .bad b

/-- Channel messages with one data byte. (`program_change.py:36-47`, `channel_pressure.py:36-47`.) -/
def fromOne (t : One) (b : List Nat) : Msg :=
  match b with
  | [st, x] => if x ≤ 127 then .one t x (some (st &&& 0x0F)) else .bad b
  | _ => .bad b

/-- `pitch_bend.py:37-41, 52-56`. -/
def fromBend (b : List Nat) : Msg :=
  match b with
  | [st, x, y] => if (y <<< 7) ||| x ≤ 16383 then .bend ((y <<< 7) ||| x) (some (st &&& 0x0F)) else .bad b
  | _ => .bad b

/-- `mtc_quarter_frame.py:50-55, 65-67`. -/
def fromMtc (b : List Nat) : Msg :=
  match b with
  | [_, x] => if x >>> 4 ≤ 7 ∧ x &&& 15 ≤ 0x0F then .mtc (x >>> 4) (x &&& 15) else .bad b
  | _ => .bad b

/-- `system_exclusive.py:54-60`. -/
def fromSysex (b : List Nat) : Msg :=
  match b[1]? with
  | none => .bad b
  | some m => if m ≠ 0 then .sysex (slice b 1 2) (slice b 2 (b.length - 1)) else .sysex (slice b 1 4) (slice b 4 (b.length - 1))

/-- `from_bytes` of the types with the checks of the constructors, and `midi_message.py:303-307`. An exception gives a bad event
(`midi_message.py:263-269`). It is only called with complete messages. -/
def fromBytes (c : Cls) (b : List Nat) : Msg :=
  match c with
  | .noteOff => fromTwo .noteOff b
  | .noteOn => fromTwo .noteOn b
  | .keyPressure => fromTwo .keyPressure b
  | .cc => fromTwo .cc b
  | .pc => fromOne .pc b
  | .chanPressure => fromOne .chanPressure b
  | .bend => fromBend b
  | .sysex => fromSysex b
  | .mtc => fromMtc b
  | .clock => .single .clock
  | .start => .single .start
  | .continue => .single .continue
  | .stop => .single .stop
  | .sensing => .single .sensing

/-- The type for a status byte: the first one which matches. (`midi_message.py:184-188`.) -/
def classOf (reg : List Cls) (status : Nat) : Option Cls := reg.find? fun c => c.status == status &&& c.mask

/-- `midi_message.py:188-207`: is the message complete, and where does it end? (With a bad end it is not complete.) -/
def extent (buf : List Nat) (start e : Nat) (c : Cls) : Bool × Nat :=
  if ¬ ((buf.length : Int) - start ≥ c.length) then (false, e)
  else if c.length < 0 then ((searchEom buf 0xF7 (start + 1)).2.1, (searchEom buf 0xF7 (start + 1)).1)
  else (true, start + c.length.toNat)

/-- If the channel of a message is one of those to be received. (`midi_message.py:261, 265-266`.) -/
def accepted (spec : List Nat) (m : Msg) : Bool :=
  match m.channel with
  | none => true
  | some ch => channelFilter ch spec

/-- `midi_message.py:220-290` `from_message_bytes`: the loop. Returns the message and the end. Each turn but the last one goes on by a byte at
least, so that `buf.length + 1` turns are enough. -/
def parseLoop (reg : List Cls) (spec buf : List Nat) : Nat → Nat → Nat → Option Msg × Nat
  | 0, _, e => (none, e)
  | fuel + 1, start, e =>
    match buf[skipData buf start]? with
    | none => (none, buf.length)
    | some status =>
      match classOf reg status with
      | none => (some (.unknown status), skipData buf start + 1)
      | some c =>
        if (extent buf (skipData buf start) e c).1 then
          if accepted spec (fromBytes c (slice buf (skipData buf start) (extent buf (skipData buf start) e c).2)) then
            (some (fromBytes c (slice buf (skipData buf start) (extent buf (skipData buf start) e c).2)), (extent buf (skipData buf start) e c).2)
          else parseLoop reg spec buf fuel (extent buf (skipData buf start) e c).2 (extent buf (skipData buf start) e c).2
        else (none, (extent buf (skipData buf start) e c).2)

/-- `from_message_bytes` when the given types have been imported. -/
def parse (imports : List Cls) (spec buf : List Nat) : Option Msg × Nat :=
  parseLoop (registry Cls.mask imports) spec buf (buf.length + 1) 0 0

/-- `__init__.py:117-146` `receive` with the bytes in the buffer. Returns the message and the bytes left. -/
def receive (imports : List Cls) (spec buf : List Nat) : Option Msg × List Nat :=
  ((parse imports spec buf).1, if (parse imports spec buf).2 ≠ 0 then buf.drop (parse imports spec buf).2 else buf)

/-- `n` calls of `receive`: the messages, and the bytes left. -/
def receives (imports : List Cls) (spec : List Nat) : Nat → List Nat → List Msg × List Nat
  | 0, buf => ([], buf)
  | n + 1, buf =>
    ((receive imports spec buf).1.toList ++ (receives imports spec n (receive imports spec buf).2).1,
      (receives imports spec n (receive imports spec buf).2).2)

/-! ### Names of notes -/

/-- `NOTE_OFFSET`. (`midi_message.py:35`.) -/
def noteOffset : List Int := [21, 23, 12, 14, 16, 17, 19]

/-- The digits of a number, from the left. (Python's `int`.) -/
def parseNat : List Char → Nat → Option Nat
  | [], acc => some acc
  | c :: cs, acc => if '0' ≤ c ∧ c ≤ '9' then parseNat cs (acc * 10 + (c.toNat - 48)) else none

/-- Python's `int` of a text. Left out: blanks around it and underscores, which Python accepts. -/
def parseInt : List Char → Option Int
  | [] => none
  | '-' :: cs => if cs = [] then none else (parseNat cs 0).map fun n => -(n : Int)
  | '+' :: cs => if cs = [] then none else (parseNat cs 0).map fun n => (n : Int)
  | cs => (parseNat cs 0).map fun n => (n : Int)

/-- `midi_message.py:63-67`. -/
def sharpen (c : Char) : Int := if c = '#' then 1 else if c = 'b' then -1 else 0

/-- `midi_message.py:51-72` `note_parser` for a text; `none` is an exception. Upper case letters of the alphabet `a` to `z` only. -/
def noteParser (note : List Char) : Option Int :=
  match note with
  | a :: b :: rest =>
    let idx : Int := (a.toUpper.toNat : Int) - 65
    if ¬ (0 ≤ idx ∧ idx ≤ 6) then none
    else (parseInt (if sharpen b = 0 then b :: rest else rest)).bind fun octave =>
      (noteOffset[idx.toNat]?).map fun o => octave * 12 + o + sharpen b
  | _ => none

end PySwitch.MidiTypes
