import Verif.Model.KemperProtocol
/-
What the Kemper bidirectional protocol is expected to do, in terms of its trace.
-/
namespace PySwitch.Kemper.Protocol.Spec
open PySwitch.Wire PySwitch.Kemper.Protocol

/-- The beacon of the Kemper MIDI documentation: function 0x7e, command 0x40, parameter set 2, flags and the
time lease in steps of two seconds. Flags: 1 init, 2 sysex, 32 tuner mode. -/
def beaconMsg (init tuner : Bool) (leaseSeconds : Nat) : Msg :=
  .sysex [0x00, 0x20, 0x33] [0x02, 0x7f, 0x7e, 0x00, 0x40, 0x02,
    (if init then 1 else 0) + 2 + (if tuner then 32 else 0), leaseSeconds / 2]

/-- Sensing messages: Kemper SysEx with function 0x7e, instance 0, page 0x7f (the first two data bytes and
everything after these is ignored). -/
def IsSensing : Msg → Prop
  | .sysex man (_ :: _ :: 0x7e :: 0x00 :: 0x7f :: _) => man = [0x00, 0x20, 0x33]
  | _ => False

/-- The times at which a message has been sent, in order. -/
def sentTimes (m : Msg) (tr : List Entry) : List Int :=
  (tr.filter (fun e => .send m ∈ e.outs)).map (·.now)

/-- The times of the sensing messages received, in order. -/
noncomputable def sensingTimes (tr : List Entry) : List Int :=
  open Classical in (tr.filter (fun e => ∃ m, e.event = .receive m ∧ IsSensing m)).map (·.now)

/-- The times at which the connection has been established or a message has been sent. -/
def aliveTimes (m : Msg) (tr : List Entry) : List Int :=
  (tr.filter (fun e => .send m ∈ e.outs ∨ (e.before = false ∧ e.after = true))).map (·.now)

/-- The last one of some times, or the start of the clock. -/
def last (ts : List Int) : Int := ts.getLast?.getD 0

/-- What the protocol can see of the calls of the client. -/
def eventOf : Int × BiOp → Option (Int × Event)
  | (now, .update) => some (now, .update)
  | (now, .receive (some m)) => some (now, .receive m)
  | _ => none

/-- The updates among some events. -/
def updates (h : List (Int × Event)) : List (Int × Event) := h.filter (fun e => e.2 == .update)

/-- The MIDI messages among the outputs of the protocol. -/
def sends (outs : List Out) : List Msg := outs.filterMap (fun o => match o with | .send m => some m | _ => none)

/-- The MIDI messages among the effects of the client. -/
def sent (es : List Client.Eff) : List Msg := es.filterMap (fun o => match o with | .send m => some m | _ => none)

end PySwitch.Kemper.Protocol.Spec
