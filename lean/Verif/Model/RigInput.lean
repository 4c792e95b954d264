import Verif.Model.VirtualSetup
/-!
Model of the input for the rig of the emulated Kemper device (`web/htdocs/clients/kemper/virtual/VirtualKemperClientUI.js:140-153, 241-255`), on top of the device
(`Model/VirtualSetup.lean`).

Simplified: the input contains a number from 0 on. Its callbacks run before the next event: `onRigChange` (243) awaits nothing.
-/
namespace PySwitch.RigInput
open PySwitch.Kemper.Virtual PySwitch.Kemper.Setup

/-- The device and the number in the input. (`VirtualKemperClientUI.js:144-145`.) -/
structure Panel where
  device : Device
  input : Nat

/-- `VirtualKemperClientUI.js:145`. -/
def Panel.init (device : Device) : Panel := ⟨device, device.rigId⟩

/-- The parameters with the callback `onRigChange`. (`VirtualKemperClientUI.js:247-255`.) -/
def watched (p : Param) : Bool :=
  match p.receive.head? with
  | some (.cc c _) => c == 50 || c == 51 || c == 52 || c == 53 || c == 54 || c == 48 || c == 49
  | _ => false

/-- Does a message call `onRigChange`? The control for the preselected bank (47) is kept apart by `Device.receive`. (`VirtualKemperParameter.js:203-217`, `VirtualKemperClientUI.js:247-255`.) -/
def calls (d : Device) (message : List Nat) : Bool :=
  if message.take 2 = [176, 47] then false
  else
    match fired d.proto.productType d.params message with
    | none => false
    | some (p, _) => watched p

/-- One event. The callbacks of the input have been added after those of the device (`VirtualKemperParameter.js:76-78`, `VirtualKemperClientUI.js:247-255`), so they get the new rig. Typing a
number calls `setRigId` (146-153), which leaves the input alone. The other parts of the user interface set parameters which are sent by NRPN, none of them is watched. -/
def Panel.step (s : Panel) (e : Ev) : Panel :=
  let d := (s.device.step e).1
  match e with
  | .receive _ _ message => ⟨d, if calls s.device message then d.rigId else s.input⟩
  | .ui _ (.rig n) => ⟨d, n⟩
  | _ => ⟨d, s.input⟩

/-- A history. (No code of its own: a history of `step`.) -/
def Panel.run (s : Panel) (es : List Ev) : Panel := es.foldl Panel.step s

end PySwitch.RigInput
