import Verif.Spec.Wire
/-
Specification vocabulary: byte streams which also contain MIDI messages PySwitch does not know.
-/
namespace PySwitch.Wire.Spec
open PySwitch.Wire

/-- A piece of a MIDI byte stream: a known message (Control Change, Program Change, System Exclusive), or a message of any
other kind: a status byte with data (for example notes, pitch bend, aftertouch, clock, active sensing). -/
inductive Item where
  | known (m : Msg)
  | foreign (status : Nat) (data : List Nat)
deriving Repr, DecidableEq

/-- The item is well formed. A foreign status is a byte of 128..255 which is neither SysEx (240) nor Control Change
(176..191) nor Program Change (192..207). -/
def Item.Ok : Item → Prop
  | .known m => Valid m
  | .foreign st data => 128 ≤ st ∧ st < 256 ∧ st ≠ 240 ∧ st / 16 ≠ 11 ∧ st / 16 ≠ 12 ∧ Data7 data

/-- The bytes of an item. -/
def Item.bytes : Item → List Nat
  | .known m => wire m
  | .foreign st data => st :: data

/-- The bytes of a list of items. -/
def itemBytes (items : List Item) : List Nat := (items.map Item.bytes).flatten

/-- What a reader is to be told about an item: known messages on the listened channels, and an "unknown event" for each
foreign one. -/
def Item.answer (channels : List Nat) : Item → List Msg
  | .known m => if Heard channels m then [m] else []
  | .foreign st _ => [.unknown st]

/-- The same for a list of items. -/
def answers (channels : List Nat) (items : List Item) : List Msg := (items.map (Item.answer channels)).flatten

/-- The item is not a SysEx message. -/
def Item.NoSysex : Item → Prop
  | .known m => IsChannelMsg m
  | .foreign _ _ => True

/-- The known messages among some items, on the listened channels. -/
def knownMessages (channels : List Nat) : List Item → List Msg
  | [] => []
  | .known m :: is => if Heard channels m then m :: knownMessages channels is else knownMessages channels is
  | .foreign _ _ :: is => knownMessages channels is

/-- An answer telling nothing but that there was something unknown. -/
def IsUnknown : Msg → Bool
  | .unknown _ => true
  | _ => false

end PySwitch.Wire.Spec
