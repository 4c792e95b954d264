import Verif.Model.VirtualMachine
import Verif.Model.PortScan

/-!
Model of the detection of a Kemper (`web/htdocs/clients/kemper/KemperClientDetector.js`), with the search for ports of `Model/PortScan.lean`.
-/

namespace PySwitch.Detector
open PySwitch.Wire

/-- `KemperClientDetector.js:1-4, 43-57`: the message which is sent to each port. -/
def request : List Nat := [240] ++ ([0, 32, 51] ++ [2, 127, 65, 0, 4, 1, 247])

/-- `KemperClientDetector.js:21-38`: is the message taken for an answer? (`undefined`, for an empty message, is no status byte.) -/
def accepts (data : List Nat) : Bool :=
  if data.head? ≠ some 240 ∨ data.getLast? ≠ some 247 then false
  else
    let manufacturerId := slice data 1 4
    let msgData := slice data 4 (data.length - 1)
    if manufacturerId ≠ [0, 32, 51] then false
    else if slice msgData 2 6 ≠ [1, 0, 4, 1] then false
    else true

/-- What happens in a search: a message comes from the port of an attempt, or the time of an attempt is over. (No code of its own: see
`PortScan.Ev`.) -/
inductive Ev where
  | message (i : Nat) (data : List Nat)
  | timeout (i : Nat)
deriving DecidableEq, Repr

/-- One step: the listener (`KemperClientDetector.js:17-40`) calls `resolve` (`ClientController.js:103-110`), or the timer ends the attempt. -/
def step (names : List String) (s : PortScan.State) : Ev → PortScan.State
  | .message i data => if accepts data then s.step names false (.answer i) else s
  | .timeout i => s.step names false (.timeout i)

/-- A search for a Kemper (`ClientController.js:32-62, 117-129`). -/
def search (names : List String) (es : List Ev) : PortScan.State := es.foldl (step names) (PortScan.start names)

end PySwitch.Detector
