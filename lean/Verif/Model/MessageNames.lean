import Verif.Model.VirtualParams
import Verif.Model.Properties
/-!
Model of what the MIDI monitor of the editor writes about a message: its name, its value and its bytes (`web/htdocs/js/ui/misc/MidiMonitor.js:463-501`,
`web/htdocs/clients/kemper/virtual/VirtualKemperClient.js:52-73, 243-302`, `VirtualKemperParameters.js:13-32`, `VirtualKemperParameter.js:109-198, 259-295`,
`VirtualKemperProtocol.js:30-41, 77-85`).

Simplified: there is one virtual client (the Kemper is the only one in the repository). Bytes which a message lacks are 0 (in the program they are `undefined` or `NaN`).
-/
namespace PySwitch.MessageNames
open PySwitch.Properties (Text lit)
open PySwitch.Kemper.Virtual
open PySwitch.Wire (slice)

/-- A shown value: nothing, a number, a text (as character codes) or bytes. (`MidiMonitor.js:480-488`.) -/
inductive Shown where
  | empty
  | num (n : Nat)
  | text (chars : List Nat)
  | bytes (l : List Nat)
deriving Repr, DecidableEq

/-- The value of a parameter. (`VirtualKemperParameter.js:158-161, 291-294`.) -/
def ofVal : PVal → Shown
  | .num n => .num n
  | .str cs => .text cs

/-- `VirtualKemperParameter.js:143-146, 158-161, 174-177, 187-190`: the properties of a message which the parameter takes. -/
def ofHit (name : Text) : Hit → Text × Shown
  | .request => (lit "request " ++ name, .empty)
  | .set v => (name, ofVal v)

/-- `VirtualKemperParameter.js:264-295` `parseSendMessage`. -/
def sendProps (name : Text) (p : Param) (message : List Nat) : Option (Text × Shown) :=
  match p.send with
  | none => none
  | some (.nrpn data) =>
    if message.take (8 + data.length) = [240, 0, 32, 51, 0, 0, setCode p.value, 0] ++ data then
      some (name, ofVal (evaluate p.value (slice message (8 + data.length) (message.length - 1))))
    else none
  | some (.cc control scale) => if message.take 2 = [176, control] then some (name, .num (message.getD 2 0 * scale.getD 1)) else none
  | some .pc => if message.take 1 = [192] then some (name, .num (message.getD 1 0)) else none

/-- `VirtualKemperParameters.js:16-32` `getMessageProperties`: all parameters, with their names, in the order of their definition. -/
def parameterProps (productType : Nat) (message : List Nat) : List (Text × Param) → Option (Text × Shown)
  | [] => none
  | e :: es => match e.2.hit productType message with
    | some h => some (ofHit e.1 h)
    | none => match sendProps e.1 e.2 message with
      | some r => some r
      | none => parameterProps productType message es

/-- `VirtualKemperProtocol.js:30-41` `getMessageProperties`, 77-85. -/
def protocolProps (productType : Nat) (message : List Nat) : Option (Text × Shown) :=
  if message.take 9 = [240, 0, 32, 51, productType, 127, 126, 0, 127] then some (lit "Protocol KeepAlive", .empty)
  else if message.take 9 = [240, 0, 32, 51, productType, 127, 126, 0, 64] then some (lit "Protocol Init", .empty)
  else none

/-- `VirtualKemperClient.js:255-265`: the value of an unknown NRPN message. -/
def nrpnValue (data : List Nat) : Shown :=
  if data.length = 2 then .num (128 * data.getD 0 0 + data.getD 1 0)
  else if data.length > 2 then .text data
  else .bytes data

/-- `VirtualKemperClient.js:246-302` `#determineMessageProperties`. -/
def determine (message : List Nat) : Option (Text × Shown) :=
  if message.take 4 = [240, 0, 32, 51] then
    if message.length ≥ 8 then some (lit "NRPN Function " ++ Nat.toDigits 10 (message.getD 6 0), nrpnValue (slice message 8 (message.length - 1)))
    else some (lit "SysEx", .bytes (slice message 4 (message.length - 1)))
  else match message with
    | [] => none
    | status :: rest =>
      if status ≥ 176 then
        if status < 192 then
          some (lit "CC " ++ Nat.toDigits 10 (rest.getD 0 0) ++ lit " (Channel " ++ Nat.toDigits 10 (status - 175) ++ lit ")", .num (rest.getD 1 0))
        else if status < 208 then some (lit "PC (Channel " ++ Nat.toDigits 10 (status - 191) ++ lit ")", .num (rest.getD 0 0))
        else if status = 240 then some (lit "SysEx", .bytes message)
        else none
      else none

/-- `VirtualKemperClient.js:55-73` `getMessageProperties`. -/
def properties (productType : Nat) (params : List (Text × Param)) (message : List Nat) : Option (Text × Shown) :=
  let prefixed := fun (r : Text × Shown) => (lit "Kemper: " ++ r.1, r.2)
  match parameterProps productType message params with
  | some r => some (prefixed r)
  | none => match protocolProps productType message with
    | some r => some (prefixed r)
    | none => (determine message).map prefixed

/-- `padStart(n, c)`. (`MidiMonitor.js:470, 473`.) -/
def padStart (n : Nat) (c : Char) (t : Text) : Text := List.replicate (n - t.length) c ++ t

/-- `MidiMonitor.js:468-471` `convert`. -/
def convert (hex : Bool) (b : Nat) : Text := if hex then padStart 2 '0' (Nat.toDigits 16 b) else Nat.toDigits 10 b

/-- `.join(", ")`. (`MidiMonitor.js:474`.) -/
def join : List Text → Text
  | [] => []
  | [t] => t
  | t :: u :: ts => t ++ ',' :: ' ' :: join (u :: ts)

/-- `MidiMonitor.js:466-475` `#formatMidiMessageBytes`. -/
def formatBytes (hex pad : Bool) (message : List Nat) : Text :=
  join (message.map fun b => if pad then padStart 3 ' ' (convert hex b) else convert hex b)

/-- `MidiMonitor.js:480-488` `#formatMidiMessageValue`, for the value of the properties. -/
def formatValue (hex : Bool) (props : Option (Text × Shown)) (message : List Nat) : Text :=
  match props with
  | none => formatBytes hex true message
  | some (_, .bytes l) => formatBytes hex false l
  | some (_, .empty) => []
  | some (_, .num n) => Nat.toDigits 10 n
  | some (_, .text cs) => cs.map Char.ofNat

end PySwitch.MessageNames
