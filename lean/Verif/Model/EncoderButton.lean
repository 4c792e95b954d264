/-
Model of `ENCODER_BUTTON` (`content/lib/pyswitch/clients/local/actions/encoder_button.py`) and of the way encoders
are connected to it (`content/lib/pyswitch/controller/actions/EncoderAction.py:58-62`). Encoders and buttons are
numbered.
-/
namespace PySwitch.EncoderButton

/-- `encoder_button.py:21-25` the callback of a button. -/
structure Button where
  encoders : List Nat := []
  cancelMode : Bool := false
deriving Repr, DecidableEq

/-- `encoder_button.py:28-30` `register_encoder`. -/
def Button.register (b : Button) (encoder : Nat) (cancelMode : Bool) : Button :=
  { encoders := b.encoders ++ [encoder], cancelMode := cancelMode }

/-- What a button does with an encoder. (`encoder_button.py:32-37`.) -/
inductive Call where
  | accept (encoder : Nat)
  | cancel (encoder : Nat)
deriving Repr, DecidableEq

/-- `encoder_button.py:32-37` `push`. (`release`, lines 39-40, does nothing.) -/
def Button.push (b : Button) : List Call :=
  b.encoders.map (fun e => if b.cancelMode then .cancel e else .accept e)

/-- `EncoderAction.py:16, 21`: the accept and cancel button given for an encoder. -/
structure Assignment where
  accept : Option Nat := none
  cancel : Option Nat := none
deriving Repr, DecidableEq

/-- One button gets registered. (`encoder_button.py:28-30`.) -/
def registerAt (bs : Nat → Button) (button : Option Nat) (encoder : Nat) (cancelMode : Bool) : Nat → Button :=
  match button with
  | none => bs
  | some k => fun j => if j = k then (bs j).register encoder cancelMode else bs j

/-- `EncoderAction.py:58-62`: the part of the constructor of encoder number `e`. -/
def construct (bs : Nat → Button) (e : Nat) (a : Assignment) : Nat → Button :=
  registerAt (registerAt bs a.accept e false) a.cancel e true

/-- Encoders are constructed one after the other (numbered in this order, beginning with `e`).
(No code of its own: repeated `EncoderAction.py:58-62`.) -/
def constructAll : Nat → (Nat → Button) → List Assignment → (Nat → Button)
  | _, bs, [] => bs
  | e, bs, a :: as => constructAll (e + 1) (construct bs e a) as

/-- The buttons of a configuration. (`encoder_button.py:9-25`.) -/
def buttons (as : List Assignment) : Nat → Button := constructAll 0 (fun _ => {}) as

end PySwitch.EncoderButton
