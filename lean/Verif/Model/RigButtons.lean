import Verif.Model.Rigs
import Verif.Model.VirtualSetup

/-!
A panel with any number of buttons which select rigs and banks (the actions of `Model/Rigs.lean`), connected to the virtual Kemper
(`Model/VirtualSetup.lean`). All actions share the data of the application, and all of them get the rig ID when the device reports it
(`content/lib/pyswitch/controller/client.py:361-395, 482-513`: all mappings with the same messages; that PySwitch knows the rig from the messages of the
device is C133).

A button is pressed as follows: the action is pushed, the device gets the messages and its rig is reported, the action is released, the device
gets the messages and its rig is reported.
-/

namespace PySwitch.RigButtons
open PySwitch.Rigs PySwitch.Kemper

/-- An action of the panel, with its state. (`rig_up_down.py`, `bank_up_down.py`, `bank_select.py`, `rig_select.py` in
`content/lib/pyswitch/clients/kemper/actions/`.) -/
inductive Button where
  | rigChange (c : RigChange) (st : State)
  | bankChange (c : BankChange) (st : State)
  | bankSelect (c : BankSelect) (st : State)
  | rigSelect (c : RigSelect) (st : SelState)
deriving Repr, DecidableEq

/-- `push` of the action. (`rig_up_down.py:112-131`, `bank_up_down.py:143-157`, `bank_select.py:113-149`, `rig_select.py:139-191`.) -/
def Button.push (sh : Shared) : Button → Button × Shared × List CC
  | .rigChange c st => let r := c.push st sh; (.rigChange c r.1, r.2.1, r.2.2)
  | .bankChange c st => let r := c.push st sh; (.bankChange c r.1, r.2.1, r.2.2)
  | .bankSelect c st => let r := c.push st sh; (.bankSelect c r.1, r.2.1, r.2.2)
  | .rigSelect c st => let r := c.push st sh; (.rigSelect c r.1, r.2.1, r.2.2)

/-- `release` of the action. (`rig_up_down.py:133-139`, `bank_up_down.py:159-160`, `bank_select.py:151-157`, `rig_select.py:194-208`.) -/
def Button.release (sh : Shared) : Button → Button × Shared × List CC
  | .rigChange c st => let r := Rigs.release st; (.rigChange c r.1, sh, r.2)
  | .bankChange c st => (.bankChange c st, sh, [])
  | .bankSelect c st => let r := Rigs.release st; (.bankSelect c r.1, sh, r.2)
  | .rigSelect c st => let r := c.release st sh; (.rigSelect c r.1, r.2.1, r.2.2)

/-- The rig ID arrives, and the displays are updated. (`client.py:361-395, 482-513`, `rig_select.py:221-247`.) -/
def Button.report (rig : Int) : Button → Button
  | .rigChange c st => .rigChange c { st with value := some rig }
  | .bankChange c st => .bankChange c { st with value := some rig }
  | .bankSelect c st => .bankSelect c { st with value := some rig }
  | .rigSelect c st => .rigSelect c (c.updateDisplays { st with value := some rig })

/-- The buttons, the shared data, and the device. (No code of its own: both sides.) -/
structure Sys where
  buttons : List Button
  shared : Shared := {}
  dev : Setup.Device

/-- The bytes of a control change message. (`web/htdocs/python/adafruit_midi/control_change.py:45-48`.) -/
def bytes (m : CC) : List Nat := [176, m.number.toNat, m.value.toNat]

/-- The device gets messages, and reports its rig. (`VirtualKemperClient.js:144-149, 183-199`.) -/
def Sys.deliver (s : Sys) (now : Int) (date : List Nat) (ms : List CC) : Sys :=
  let dev := (s.dev.run (ms.map fun m => .receive now date (bytes m))).1
  { s with dev, buttons := s.buttons.map (Button.report dev.rigId) }

/-- One action of a button is done. (No code of its own: see the beginning.) -/
def Sys.act (s : Sys) (f : Shared → Button → Button × Shared × List CC) (i : Nat) (now : Int) (date : List Nat) : Sys :=
  match s.buttons[i]? with
  | none => s
  | some b =>
    let r := f s.shared b
    Sys.deliver { s with buttons := s.buttons.set i r.1, shared := r.2.1 } now date r.2.2

/-- What happens: a button is pressed (with the times of pushing and releasing and the date shown by the device), the device is updated, or
another rig is chosen at the device. (No code of its own.) -/
inductive Ev where
  | press (i : Nat) (t0 t1 : Int) (date : List Nat)
  | update (now : Int)
  | device (rig : Nat) (date : List Nat)
deriving Repr, DecidableEq

/-- One event. (No code of its own: see the beginning.) -/
def Sys.step (s : Sys) : Ev → Sys
  | .press i t0 t1 date => (s.act Button.push i t0 date).act Button.release i t1 date
  | .update now => { s with dev := (s.dev.update now).1 }
  | .device rig date =>
    let dev := (s.dev.ui date (.rig rig)).1
    { s with dev, buttons := s.buttons.map (Button.report dev.rigId) }

def Sys.run (s : Sys) (es : List Ev) : Sys := es.foldl Sys.step s

/-- What happens when buttons can be held while others are used: pushing and releasing are separate. (No code of its own.) -/
inductive HoldEv where
  | push (i : Nat) (now : Int) (date : List Nat)
  | release (i : Nat) (now : Int) (date : List Nat)
  | update (now : Int)
  | device (rig : Nat) (date : List Nat)
deriving Repr, DecidableEq

/-- One event. (No code of its own: see `Sys.step`.) -/
def Sys.holdStep (s : Sys) : HoldEv → Sys
  | .push i now date => s.act Button.push i now date
  | .release i now date => s.act Button.release i now date
  | .update now => s.step (.update now)
  | .device rig date => s.step (.device rig date)

def Sys.holdRun (s : Sys) (es : List HoldEv) : Sys := es.foldl Sys.holdStep s

/-- The parameters of an action. (`rig_up_down.py:10-76`, `bank_up_down.py:14-82`, `bank_select.py:14-44`, `rig_select.py:14-71`.) -/
inductive Config where
  | rigChange (c : RigChange)
  | bankChange (c : BankChange)
  | bankSelect (c : BankSelect)
  | rigSelect (c : RigSelect)
deriving Repr, DecidableEq

/-- A new action; `none` for the exception (`rig_select.py:75-76`). -/
def Config.create : Config → Option Button
  | .rigChange c => some (.rigChange c {})
  | .bankChange c => some (.bankChange c {})
  | .bankSelect c => some (.bankSelect c {})
  | .rigSelect c => c.init.map (.rigSelect c)

/-- The panel after PySwitch has been connected to the device: all actions have got the rig. -/
def start (bs : List Button) (dev : Setup.Device) : Sys := { buttons := bs.map (Button.report dev.rigId), dev }

end PySwitch.RigButtons
