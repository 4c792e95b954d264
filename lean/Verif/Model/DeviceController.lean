import Verif.Model.Bridge

/-!
Model of loading and saving files of a device (`web/htdocs/js/DeviceController.js`), on top of the bridge. A promise is settled by the first of
the callbacks which resolves or rejects it; the callbacks of a bridge are those set last.

Simplifications: the progress display is left out, and a connection exists.
-/

namespace PySwitch.Bridge

/-- `web/htdocs/js/midi/MidiBridgeHandler.js:25`. -/
def chunkSizeRequest : Nat := 100
/-- `web/htdocs/js/midi/MidiBridgeHandler.js:30`. -/
def chunkSizeSend : Nat := 65

/-- `web/htdocs/js/DeviceController.js:158-187` `saveFile`: what is done by the call. -/
def saveFile (now : Nat) (path content : Str) (b : Bridge) : Res :=
  sendString now path content chunkSizeSend typeFile { b with throws := true }

/-- `web/htdocs/js/DeviceController.js:168-183`: how the promise of `saveFile` is settled by the callbacks of the bridge (if it is). -/
def saveSettled : List Eff → Option (Except Str Unit)
  | [] => none
  | .sendProgress _ _ chunk numChunks isFile :: r =>
    if isFile = false then saveSettled r else if chunk + 1 = numChunks then some (.ok ()) else saveSettled r
  | .onError message :: _ => some (.error message)
  | _ :: r => saveSettled r

/-- `web/htdocs/js/DeviceController.js:121-153` `loadFile`: what is done by the call. -/
def loadFile (path : Str) (b : Bridge) : Res := request path chunkSizeRequest { b with throws := true }

/-- `web/htdocs/js/DeviceController.js:141-149`: how the promise of `loadFile` is settled by the callbacks of the bridge (if it is). -/
def loadSettled : List Eff → Option (Except Str Str)
  | [] => none
  | .receiveFinish _ _ data _ :: _ => some (.ok data)
  | .onError message :: _ => some (.error message)
  | _ :: r => loadSettled r

end PySwitch.Bridge
