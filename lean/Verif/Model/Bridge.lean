import Verif.Model.Num

/-!
Model of the file transfer between the configuration editor and the controller
(`web/htdocs/lib/jsmidibridge/JsMidiBridge.js`, below "JsMidiBridge.js"). The port for the controller, PyMidiBridge, is
shipped compiled only (`content/lib/pymidibridge/*.mpy`); here, the JavaScript class talks "with itself" (lines 19-20).

Text is a list of UTF-16 code units, as in JavaScript. `TextEncoder` and `TextDecoder` belong to the browser and are
modelled as in the Encoding Standard. Numbers are bytes, or half-bytes (0..127) in MIDI messages.

Simplifications: each call runs to its end before the next message comes in (all that is awaited is done at
once), log output is left out, and the callbacks do not throw.
-/

namespace PySwitch.Bridge

/-- Bytes, or half-bytes of a MIDI message. (No code of its own.) -/
abbrev Bytes := List Nat
/-- Text, as UTF-16 code units. (No code of its own.) -/
abbrev Str := List Nat

/-- The code units of a text of the program, which consists of ASCII characters only. (No code of its own.) -/
def lit (s : String) : Str := s.toList.map Char.toNat

/-! ### Conversions -/

/-- `JsMidiBridge.js:878-880`: the bits of a byte, the highest of `width` first. -/
def bitsOf (width b : Nat) : List Bool :=
  (List.range width).map fun i => (b &&& (1 <<< (width - 1 - i))) == (1 <<< (width - 1 - i))

/-- `JsMidiBridge.js:858-875` `flush`: zeros are appended, then the bits are put together. -/
def flush (to : Nat) (buffer : List Bool) : Nat :=
  ((buffer ++ List.replicate (to - buffer.length) false).zipIdx.foldl
    (fun entry e => if e.1 then entry ||| (1 <<< (to - 1 - e.2)) else entry) 0)

/-- `JsMidiBridge.js:880-884`: one more bit. -/
def pushBit (to : Nat) (st : Bytes × List Bool) (bit : Bool) : Bytes × List Bool :=
  let buffer := st.2 ++ [bit]
  if buffer.length = to then (st.1 ++ [flush to buffer], []) else (st.1, buffer)

/-- `JsMidiBridge.js:850-893` `convertBitlength`. -/
def convertBitlength (data : Bytes) (width to : Nat) (appendLeftovers : Bool) : Bytes :=
  let st := (data.flatMap (bitsOf width)).foldl (pushBit to) ([], [])
  if appendLeftovers && st.2.length > 0 then st.1 ++ [flush to st.2] else st.1

/-- `JsMidiBridge.js:835-837`. -/
def packBytes (data : Bytes) : Bytes := convertBitlength data 8 7 true

/-- `JsMidiBridge.js:842-844`. -/
def unpackBytes (data : Bytes) : Bytes := convertBitlength data 7 8 false

/-- `JsMidiBridge.js:795-810` `number2bytes`, for up to three bytes (more are not used). -/
def number2bytes (num numBytes : Nat) : Bytes :=
  packBytes ((List.range numBytes).map fun i =>
    (num &&& (0xff <<< ((numBytes - i - 1) * 8))) >>> ((numBytes - i - 1) * 8))

/-- JavaScript `a << n`: 32 bits with sign, of which only the lowest five bits of `n` count. (Used in
`JsMidiBridge.js:822`.) -/
def shl32 (a n : Nat) : Int :=
  let r : Nat := (a * 2 ^ (n % 32)) % 2 ^ 32
  if r ≥ 2 ^ 31 then (r : Int) - 2 ^ 32 else r

/-- `JsMidiBridge.js:815-826` `bytes2number`. -/
def bytes2number (data : Bytes) : Int :=
  let bytes := unpackBytes data
  bytes.zipIdx.foldl (fun result e => result + shl32 e.1 ((bytes.length - e.2 - 1) * 8)) 0

/-! ### Checksum -/

/-- `JsMidiBridge.js:754-761`, for one bit. -/
def crcBit (crc : Nat) (bit : Bool) : Nat :=
  if (crc % 2 == 1) != bit then (crc >>> 1) ^^^ 0x6756 else crc >>> 1

/-- `JsMidiBridge.js:752-761`: one byte, the lowest bit first. -/
def crcByte (crc b : Nat) : Nat :=
  ((List.range 8).map fun x => (b >>> x) % 2 == 1).foldl crcBit crc

/-- `JsMidiBridge.js:748-768` `crc16`. (`~crc & 0xFFFF` is written as an exclusive or.) -/
def crc16 (data : Bytes) : Nat :=
  let crc := data.foldl crcByte 0xFFFF
  let crc := 0xFFFF ^^^ crc
  ((crc <<< 8) ||| ((crc >>> 8) &&& 0xFF)) &&& 0xFFFF

/-- `JsMidiBridge.js:735-742` `getChecksum`. -/
def getChecksum (data : Bytes) : Bytes := number2bytes (crc16 data) 2

/-! ### Text -/

/-- A code unit without partner: a surrogate becomes U+FFFD. (Encoding Standard, for `JsMidiBridge.js:778-779`.) -/
def single (u : Nat) : Nat := if 0xD800 ≤ u ∧ u < 0xE000 then 0xFFFD else u

/-- Code points of a text. (Encoding Standard, for `JsMidiBridge.js:778-779`.) -/
def codePoints : Str → List Nat
  | [] => []
  | [u] => [single u]
  | u :: v :: rest =>
    if (0xD800 ≤ u ∧ u < 0xDC00) ∧ 0xDC00 ≤ v ∧ v < 0xE000 then
      (0x10000 + (u - 0xD800) * 0x400 + (v - 0xDC00)) :: codePoints rest
    else single u :: codePoints (v :: rest)

/-- UTF-8 bytes of a code point. (Encoding Standard, for `JsMidiBridge.js:778-779`.) -/
def utf8 (c : Nat) : Bytes :=
  if c < 0x80 then [c]
  else if c < 0x800 then [0xC0 + c / 0x40, 0x80 + c % 0x40]
  else if c < 0x10000 then [0xE0 + c / 0x1000, 0x80 + c / 0x40 % 0x40, 0x80 + c % 0x40]
  else [0xF0 + c / 0x40000, 0x80 + c / 0x1000 % 0x40, 0x80 + c / 0x40 % 0x40, 0x80 + c % 0x40]

/-- `TextEncoder.encode` (used in `JsMidiBridge.js:778-779`). -/
def encodeText (s : Str) : Bytes := (codePoints s).flatMap utf8

/-- UTF-16 code units of a code point. (Encoding Standard, for `JsMidiBridge.js:788-789`.) -/
def utf16 (c : Nat) : Str :=
  if c < 0x10000 then [c] else [0xD800 + (c - 0x10000) / 0x400, 0xDC00 + (c - 0x10000) % 0x400]

/-- State of the UTF-8 decoder: bytes still needed (0 for none), bounds for the next byte, code point so far. (Encoding
Standard, for `JsMidiBridge.js:788-789`.) -/
structure Dec where
  needed : Nat := 0
  lower : Nat := 0x80
  upper : Nat := 0xBF
  cp : Nat := 0
deriving DecidableEq

/-- A byte at the start of a code point. (Encoding Standard, for `JsMidiBridge.js:788-789`.) -/
def decodeFirst (b : Nat) : Dec × Str :=
  if b < 0x80 then ({}, [b])
  else if 0xC2 ≤ b ∧ b ≤ 0xDF then ({ needed := 1, cp := b % 0x20 }, [])
  else if 0xE0 ≤ b ∧ b ≤ 0xEF then
    ({ needed := 2, cp := b % 0x10, lower := if b = 0xE0 then 0xA0 else 0x80, upper := if b = 0xED then 0x9F else 0xBF }, [])
  else if 0xF0 ≤ b ∧ b ≤ 0xF4 then
    ({ needed := 3, cp := b % 0x08, lower := if b = 0xF0 then 0x90 else 0x80, upper := if b = 0xF4 then 0x8F else 0xBF }, [])
  else ({}, [0xFFFD])

/-- Any byte; one which does not continue a code point ends it with U+FFFD and is taken as the start of the next. (Encoding
Standard, for `JsMidiBridge.js:788-789`.) -/
def decodeByte (d : Dec) (b : Nat) : Dec × Str :=
  if d.needed = 0 then decodeFirst b
  else if b < d.lower ∨ d.upper < b then ((decodeFirst b).1, 0xFFFD :: (decodeFirst b).2)
  else if d.needed = 1 then ({}, utf16 (d.cp * 0x40 + b % 0x40))
  else ({ needed := d.needed - 1, cp := d.cp * 0x40 + b % 0x40 }, [])

/-- The decoder on all bytes. (Encoding Standard, for `JsMidiBridge.js:788-789`.) -/
def decodeLoop (d : Dec) : Bytes → Str
  | [] => if d.needed = 0 then [] else [0xFFFD]
  | b :: rest => (decodeByte d b).2 ++ decodeLoop (decodeByte d b).1 rest

/-- `TextDecoder.decode`, which removes a byte order mark at the start (used in `JsMidiBridge.js:788-789`). -/
def decodeText (data : Bytes) : Str :=
  if [0xEF, 0xBB, 0xBF].isPrefixOf data then decodeLoop {} (data.drop 3) else decodeLoop {} data

/-- `JsMidiBridge.js:777-781`. -/
def string2bytes (s : Str) : Bytes := packBytes (encodeText s)

/-- `JsMidiBridge.js:786-790`. -/
def bytes2string (data : Bytes) : Str := decodeText (unpackBytes data)

/-! ### Transmissions -/

/-- `JsMidiBridge.js:87-88`. -/
def typeFile : Bytes := [0x00]
/-- `JsMidiBridge.js:87-88`. -/
def typeError : Bytes := [0x01]

/-- A transmission being sent, `JsMidiBridge.js:242-248, 264-270, 278-279, 303-306`. `time` is not set at first. -/
structure SendTx where
  id : Bytes
  path : Str
  amountChunks : Nat
  chunkSize : Nat
  message : Str
  type : Bytes
  nextChunk : Nat := 0
  time : Option Nat := none
deriving DecidableEq

/-- A transmission being received, `JsMidiBridge.js:512-519`. -/
structure RecvTx where
  id : Bytes
  type : Bytes
  amountChunks : Int
  path : Str
  lastChunk : Int := -1
  buffer : Str := []
  time : Option Nat := none
deriving DecidableEq

/-- `JsMidiBridge.js:137-142`. The maps are lists of keys and values, in the order of insertion. `nextId` is the value after
`JsMidiBridge.js:392-401` (the random number at first; it belongs to the class, but there is one bridge on each side). -/
structure Bridge where
  nextId : Nat
  sends : List (Bytes × SendTx) := []
  recvs : List (Bytes × RecvTx) := []
  throws : Bool := false
deriving DecidableEq

/-- What a bridge does: sends a message (`JsMidiBridge.js:679-684`, the manufacturer id is always the same), or calls a callback
(`JsMidiBridge.js:149-214`). -/
inductive Eff where
  | sysex (data : Bytes)
  | sendProgress (path : Str) (id : Bytes) (chunk numChunks : Nat) (isFile : Bool)
  | receiveStart (path : Str) (id type : Bytes) (numChunks : Int)
  | receiveProgress (path : Str) (id : Bytes) (chunk numChunks : Int)
  | receiveFinish (id : Bytes) (path data : Str) (numChunks : Int)
  | receiveAck (id : Bytes)
  | onError (message : Str)
deriving DecidableEq

/-- A call: the new state, what was done, and the message of the exception, if there was one. (No code of its own.) -/
structure Res where
  bridge : Bridge
  effs : List Eff
  error : Option Str := none
deriving DecidableEq

/-- `Map.set`, for `JsMidiBridge.js:282, 522`. -/
def put {β : Type} (k : Bytes) (v : β) : List (Bytes × β) → List (Bytes × β)
  | [] => [(k, v)]
  | (k', v') :: rest => if k' = k then (k, v) :: rest else (k', v') :: put k v rest

/-- `Map.get`, for `JsMidiBridge.js:540, 621`. -/
def find {β : Type} (k : Bytes) : List (Bytes × β) → Option β
  | [] => none
  | (k', v) :: rest => if k' = k then some v else find k rest

/-- `Map.delete`, for `JsMidiBridge.js:611, 633, 723`. -/
def del {β : Type} (k : Bytes) (m : List (Bytes × β)) : List (Bytes × β) := m.filter fun e => e.1 ≠ k

/-- `JsMidiBridge.js:714-726`: is it kept? -/
def fresh (now : Nat) (time : Option Nat) : Bool :=
  match time with
  | none => true
  | some t => !(now - t > 5000)

/-- `JsMidiBridge.js:706-726` `cleanupTransmissions`. -/
def cleanup (now : Nat) (b : Bridge) : Bridge :=
  { b with sends := b.sends.filter fun e => fresh now e.2.time, recvs := b.recvs.filter fun e => fresh now e.2.time }

/-! ### Messages -/

/-- `JsMidiBridge.js:322-328`: any message, with its checksum. -/
def message (command : Nat) (payload : Bytes) : Bytes := [command] ++ getChecksum payload ++ payload

/-- `JsMidiBridge.js:335-352` `sendStartMessage`. -/
def startMessage (tx : SendTx) : Bytes :=
  message 0x02 (tx.id ++ tx.type ++ number2bytes tx.amountChunks 3 ++ string2bytes tx.path)

/-- `JsMidiBridge.js:358-385` `sendChunk`. -/
def sendChunk (tx : SendTx) (chunk : Str) : List Eff :=
  [.sendProgress tx.path tx.id tx.nextChunk tx.amountChunks (tx.type == typeFile),
   .sysex (message 0x03 (tx.id ++ number2bytes tx.nextChunk 3 ++ string2bytes chunk))]

/-- `JsMidiBridge.js:649-662` `sendAckMessage`. -/
def ackMessage (id : Bytes) (index : Nat) : Bytes := message 0x04 (id ++ number2bytes index 3)

/-- `JsMidiBridge.js:322-328`. -/
def requestMessage (path : Str) (chunkSize : Nat) : Bytes := message 0x01 (number2bytes chunkSize 3 ++ string2bytes path)

/-! ### Sending -/

/-- `JsMidiBridge.js:403-408`: the id, and the next one. -/
def generateId (b : Bridge) : Bytes × Bridge :=
  (number2bytes b.nextId 3, { b with nextId := if b.nextId + 1 ≥ 16777216 then 0 else b.nextId + 1 })

/-- `JsMidiBridge.js:296-307` `sendNextChunk`, for a transmission in the map. -/
def sendNextChunk (now : Nat) (tx : SendTx) (b : Bridge) : Bridge × List Eff :=
  ({ b with sends := put tx.id { tx with message := tx.message.drop tx.chunkSize, nextChunk := tx.nextChunk + 1, time := some now } b.sends },
   sendChunk tx (tx.message.take tx.chunkSize))

/-- `JsMidiBridge.js:277-290` `startSendTransmission`. -/
def startSend (now : Nat) (path message : Str) (chunkSize : Nat) (type : Bytes) (b : Bridge) : Res :=
  let (id, b) := generateId b
  let tx : SendTx := { id, path, amountChunks := (message.length + chunkSize - 1) / chunkSize, chunkSize, message, type }
  let b := cleanup now b
  let b := { b with sends := put id tx b.sends }
  let (b, effs) := sendNextChunk now tx b
  ⟨b, .sysex (startMessage tx) :: effs, none⟩

/-- The text of a number, as in `"" + n`. (Used in `JsMidiBridge.js:233, 542, 553, 629`.) -/
def textOf (n : Int) : Str := lit (toString n)

/-- `JsMidiBridge.js:255-271` `sendString`. -/
def sendString (now : Nat) (path message : Str) (chunkSize : Int) (type : Bytes) (b : Bridge) : Res :=
  if message = [] then ⟨b, [], some (lit "No message")⟩
  else if chunkSize < 1 then ⟨b, [], some (lit "Invalid chunk size: " ++ textOf chunkSize)⟩
  else startSend now path message chunkSize.toNat type b

/-- `JsMidiBridge.js:227-249` `sendFile`. `getFile` is the callback (`none` is `null`, which it can also return by throwing). -/
def sendFile (getFile : Str → Except Str (Option Str)) (now : Nat) (path : Str) (chunkSize : Int) (b : Bridge) : Res :=
  if path = [] then ⟨b, [], some (lit "No path")⟩
  else if chunkSize < 1 then ⟨b, [], some (lit "Invalid chunk size: " ++ textOf chunkSize)⟩
  else
    match getFile path with
    | .error e => ⟨b, [], some e⟩
    | .ok none => ⟨b, [], some (path ++ lit " not found or empty")⟩
    | .ok (some data) => startSend now path data chunkSize.toNat typeFile b

/-- `JsMidiBridge.js:667-674` `error`. -/
def sendError (now : Nat) (text : Str) (b : Bridge) : Res := sendString now [] text 100 typeError b

/-- `JsMidiBridge.js:313-329` `request`. -/
def request (path : Str) (chunkSize : Int) (b : Bridge) : Res :=
  if path = [] then ⟨b, [], some (lit "No path")⟩
  else if chunkSize < 1 then ⟨b, [], some (lit "Invalid chunk size: " ++ textOf chunkSize)⟩
  else ⟨b, [.sysex (requestMessage path chunkSize.toNat)], none⟩

/-! ### Receiving -/

/-- `JsMidiBridge.js:510-534` `receiveStart`. -/
def receiveStart (now : Nat) (id payload : Bytes) (b : Bridge) : Res :=
  let tx : RecvTx :=
    { id, type := payload.take 1, amountChunks := bytes2number ((payload.take 5).drop 1), path := bytes2string (payload.drop 5) }
  let b := cleanup now b
  ⟨{ b with recvs := put id tx b.recvs }, [.receiveStart tx.path id tx.type tx.amountChunks], none⟩

/-- The text of an id, as in `"" + id`: the bytes with commas between them. (Used in `JsMidiBridge.js:542, 623`.) -/
def idText (id : Bytes) : Str := ((id.map fun n : Nat => textOf n).intersperse (lit ",")).flatten

/-- `JsMidiBridge.js:585-615` `receiveFinish`. -/
def receiveFinish (tx : RecvTx) (b : Bridge) : Res :=
  if tx.type = typeFile then
    ⟨{ b with recvs := del tx.id b.recvs }, [.receiveFinish tx.id tx.path tx.buffer tx.amountChunks], none⟩
  else if tx.type = typeError then ⟨{ b with recvs := del tx.id b.recvs }, [.onError tx.buffer], none⟩
  else ⟨b, [], some (lit "Unknown transmission type: [" ++ idText tx.type ++ lit "]")⟩

/-- `JsMidiBridge.js:539-580` `receiveData`. (An accepted index is never negative, see `index = lastChunk + 1`.) -/
def receiveData (now : Nat) (id payload : Bytes) (b : Bridge) : Res :=
  match find id b.recvs with
  | none => ⟨b, [], some (lit "Receive transmission " ++ idText id ++ lit " not found")⟩
  | some tx =>
    let index := bytes2number (payload.take 4)
    let strData := bytes2string (payload.drop 4)
    if index ≠ tx.lastChunk + 1 then
      ⟨b, [], some (lit "Invalid chunk " ++ textOf index ++ lit ", expected " ++ textOf (tx.lastChunk + 1))⟩
    else
      let tx := { tx with lastChunk := index, buffer := tx.buffer ++ strData, time := some now }
      let b := { b with recvs := put id tx b.recvs }
      let effs := [.sysex (ackMessage tx.id index.toNat), .receiveProgress tx.path tx.id index tx.amountChunks]
      if index = tx.amountChunks - 1 then
        let r := receiveFinish tx b
        ⟨r.bridge, effs ++ r.effs, r.error⟩
      else ⟨b, effs, none⟩

/-- `JsMidiBridge.js:620-644` `receiveAck`. -/
def receiveAck (now : Nat) (id payload : Bytes) (b : Bridge) : Res :=
  match find id b.sends with
  | none => ⟨b, [], some (lit "Send transmission " ++ idText id ++ lit " not found")⟩
  | some tx =>
    let chunkIndex := bytes2number payload
    if chunkIndex ≠ (tx.nextChunk : Int) - 1 then ⟨b, [], some (lit "Invalid ack chunk: " ++ textOf chunkIndex)⟩
    else if tx.nextChunk = tx.amountChunks then ⟨{ b with sends := del id b.sends }, [.receiveAck id], none⟩
    else
      let r := sendNextChunk now tx b
      ⟨r.1, r.2, none⟩

/-- `JsMidiBridge.js:500-505` `receiveRequest`. -/
def receiveRequest (getFile : Str → Except Str (Option Str)) (now : Nat) (payload : Bytes) (b : Bridge) : Res :=
  sendFile getFile now (bytes2string (payload.drop 4)) (bytes2number (payload.take 4)) b

/-- `JsMidiBridge.js:447-483`: the contents of the `try` block. -/
def dispatch (getFile : Str → Except Str (Option Str)) (now : Nat) (data : Bytes) (b : Bridge) : Res :=
  let command := data.take 1
  let checksum := (data.take 4).drop 1
  let payload := data.drop 4
  if getChecksum payload ≠ checksum then ⟨b, [], some (lit "Checksum mismatch")⟩
  else if command = [0x01] then receiveRequest getFile now payload b
  else
    let id := payload.take 4
    let payload := payload.drop 4
    if command = [0x02] then receiveStart now id payload b
    else if command = [0x03] then receiveData now id payload b
    else if command = [0x04] then receiveAck now id payload b
    else ⟨b, [], none⟩

/-- `JsMidiBridge.js:421-495` `receive`, for a SysEx message with manufacturer id. Exceptions are sent to the other side, or thrown.
Also tells if the message is for the bridge. -/
def receive (getFile : Str → Except Str (Option Str)) (now : Nat) (manufacturerId data : Bytes) (b : Bridge) : Bool × Res :=
  if manufacturerId ≠ [0x00, 0x7c, 0x7d] then (false, ⟨b, [], none⟩)
  else
    let r := dispatch getFile now data b
    match r.error with
    | none => (true, r)
    | some e =>
      if r.bridge.throws then (true, r)
      else
        let r' := sendError now e r.bridge
        (true, ⟨r'.bridge, r.effs ++ r'.effs, r'.error⟩)

/-! ### Connection to MIDI -/

/-- `web/htdocs/js/midi/MidiBridgeHandler.js:175-187` `sendSysex`: the bytes of the MIDI message. -/
def wrap (data : Bytes) : Bytes := [0xf0] ++ [0x00, 0x7c, 0x7d] ++ data ++ [0xf7]

/-- `web/htdocs/js/midi/MidiBridgeHandler.js:155-170` `listenTo`: what is passed to the bridge, as manufacturer id and data. -/
def unwrap (midi : Bytes) : Option (Bytes × Bytes) :=
  if midi.head? ≠ some 0xf0 ∨ midi.getLast? ≠ some 0xf7 then none
  else some ((midi.take 4).drop 1, (midi.take (midi.length - 1)).drop 4)

end PySwitch.Bridge
