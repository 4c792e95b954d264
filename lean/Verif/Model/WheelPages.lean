import Verif.Model.Encoder
/-
Model of a wheel with several actions (`content/lib/pyswitch/controller/inputs.py:243-286`): which of them are enabled is
decided by callbacks, for example by a pager (`content/lib/pyswitch/controller/actions/EncoderAction.py:81-83`), and two of
them may use the same preview display. The display itself is modelled in `Model/Preview.lean`; here only the clients
count which are cancelled (`content/lib/pyswitch/controller/preview.py:48-53, 80-83`).
-/
namespace PySwitch.WheelPages
open PySwitch.Encoder (Err Eff)

/-- An action of the wheel: its parameters, and the display of its preview (`EncoderAction.py:67-79`), if it has one. -/
structure Action where
  enc : Encoder.Config
  label : Option Nat := none
deriving Repr, DecidableEq

/-- The states of the actions, and the clients which a preview display knows (`preview.py:36`). -/
structure State where
  encs : Nat → Encoder.State
  clients : Nat → List Nat := fun _ => []

/-- Start: nothing is known. (`EncoderAction.py:46-77`.) -/
def start : State := { encs := fun _ => {} }

/-- What happens: `read p on` is one pass of the main loop, with the position of the wheel and the callbacks' answers;
`device i v` is a new value for the parameter of action `i`, and `resetMap i v` one for its reset mapping. `accept is` and
`cancel is` are presses of an encoder button with which these actions have been registered (`EncoderAction.py:58-62`,
`content/lib/pyswitch/clients/local/actions/encoder_button.py:28-38`). -/
inductive Ev where
  | read (p : Int) (on : Nat → Bool)
  | device (i : Nat) (v : Option Int)
  | resetMap (i : Nat) (v : Option Int)
  | accept (is : List Nat)
  | cancel (is : List Nat)

/-- A new state of one action. (No code of its own.) -/
def State.put (s : State) (i : Nat) (st : Encoder.State) : State := { s with encs := fun j => if j = i then st else s.encs j }

/-- `preview.py:48-53`: cancel the other clients of a display. -/
def cancelAll (cs : Nat → Encoder.Config) (i : Nat) : State → List Nat → Except Err (State × List (Nat × Eff))
  | s, [] => .ok (s, [])
  | s, k :: ks =>
    if k = i then cancelAll cs i s ks
    else
      match Encoder.cancel (cs k) (s.encs k) true with
      | .error e => .error e
      | .ok (st, es) =>
        match cancelAll cs i (s.put k st) ks with
        | .error e => .error e
        | .ok (s', es') => .ok (s', es.map (fun x => (k, x)) ++ es')

/-- `preview.py:80-85`: the display knows the client from now on. -/
def State.know (s : State) (l i : Nat) : State :=
  { s with clients := fun k => if k = l ∧ i ∉ s.clients l then s.clients l ++ [i] else s.clients k }

/-- `EncoderAction.py:112-182` with the part of `preview.py:48-53, 80-85` for the other clients. The preview is the last
thing that `process` does, and it cancels the others first. -/
def one (cs : Nat → Encoder.Config) (i : Nat) (a : Action) (p : Int) (s : State) : Except Err (State × List (Nat × Eff)) :=
  match Encoder.process a.enc (s.encs i) p with
  | .error e => .error e
  | .ok (st, es) =>
    match es.getLast?, a.label with
    | some (.preview v), some l =>
      match cancelAll cs i (s.put i st) (s.clients l) with
      | .error e => .error e
      | .ok (s', es') => .ok (s'.know l i, es.dropLast.map (fun x => (i, x)) ++ es' ++ [(i, .preview v)])
    | _, _ => .ok (s.put i st, es.map (fun x => (i, x)))

/-- `inputs.py:281-285`: the actions in their order (the first one has the number `i`), without those which are not enabled. -/
def all (cs : Nat → Encoder.Config) (on : Nat → Bool) (p : Int) : Nat → List Action → State → Except Err (State × List (Nat × Eff))
  | _, [], s => .ok (s, [])
  | i, a :: as, s =>
    if !on i then all cs on p (i + 1) as s
    else
      match one cs i a p s with
      | .error e => .error e
      | .ok (s', es) =>
        match all cs on p (i + 1) as s' with
        | .error e => .error e
        | .ok (s'', es') => .ok (s'', es ++ es')

/-- The parameters of an action. (No code of its own.) -/
def config (as : List Action) (i : Nat) : Encoder.Config := (as[i]?.map Action.enc).getD {}

/-- `encoder_button.py:32-38`: call something for all registered encoders. -/
def calls (f : Encoder.Config → Encoder.State → Except Err (Encoder.State × List Eff)) (cs : Nat → Encoder.Config) :
    State → List Nat → Except Err (State × List (Nat × Eff))
  | s, [] => .ok (s, [])
  | s, i :: is =>
    match f (cs i) (s.encs i) with
    | .error e => .error e
    | .ok (st, es) =>
      match calls f cs (s.put i st) is with
      | .error e => .error e
      | .ok (s', es') => .ok (s', es.map (fun x => (i, x)) ++ es')

/-- One event: `inputs.py:273-285` for the wheel, `encoder_button.py:32-38` for buttons. -/
def step (as : List Action) (s : State) : Ev → Except Err (State × List (Nat × Eff))
  | .read p on => all (config as) on p 0 as s
  | .device i v => .ok (s.put i { s.encs i with value := v }, [])
  | .resetMap i v => .ok (s.put i { s.encs i with resetValue := v }, [])
  | .accept is => calls Encoder.accept (config as) s is
  | .cancel is => calls (fun c st => Encoder.cancel c st true) (config as) s is

/-- A history: the state at the end, and all effects with the number of the action. (No code of its own.) -/
def run (as : List Action) : State → List Ev → Except Err (State × List (Nat × Eff))
  | s, [] => .ok (s, [])
  | s, e :: es =>
    match step as s e with
    | .error x => .error x
    | .ok (s', fs) =>
      match run as s' es with
      | .error x => .error x
      | .ok (s'', gs) => .ok (s'', fs ++ gs)

end PySwitch.WheelPages
