import Verif.Model.Wire
/-
Model of `ClientParameterMapping` and `ClientTwoPartParameterMapping`
(`content/lib/pyswitch/controller/client.py:13-229`).

Values to be set are natural numbers (negative numbers are not modelled: `bytes()` raises for them).
-/
namespace PySwitch.Mapping
open PySwitch.Wire

/-- A parameter value: an integer, a string (its character codes), or (only by local feedback) a list of
integers. (`client.py:63-138`.) -/
inductive Val where
  | num (n : Nat)
  | str (chars : List Nat)
  | list (ns : List Nat)
deriving Repr, DecidableEq

/-- `client.py:42-43` the parameter types. -/
inductive ParType where
  | numeric | string
deriving Repr, DecidableEq

/-- Exceptions. (No code of its own: Python exceptions.) -/
inductive PyErr where
  | indexError | valueError | typeError | exception
deriving Repr, DecidableEq

deriving instance DecidableEq for Except

/-- A message field (`set` or `request`): absent, one message, or a list of messages (which may contain
`None`). (`client.py:46-57`.) -/
inductive MsgField where
  | none
  | one (m : Msg)
  | many (ms : List (Option Msg))
deriving Repr, DecidableEq

/-- Python truth value of a message field (`if not mapping.set`). (No code of its own: Python.) -/
def MsgField.truthy : MsgField → Bool
  | .none => false
  | .one _ => true
  | .many ms => !ms.isEmpty

/-- The `response` field: absent, a template, or the two templates of a two-part mapping. The entries of the
latter may be `None`. (`client.py:46-57, 206-210`.) -/
inductive Response where
  | none
  | one (m : Msg)
  | two (a b : Option Msg)
deriving Repr, DecidableEq

/-- Python truth value of the response (used in `client.py:63-69`). -/
def Response.truthy : Response → Bool
  | .none => false
  | _ => true

/-- `client.py:46-57` and `207-210`: a mapping object. `twoPart` tells if it is a
`ClientTwoPartParameterMapping`, `part1` is its `__value_1`. `depends` is the id of another mapping. -/
structure Mapping where
  set : MsgField := .none
  request : MsgField := .none
  response : Response := .none
  value : Option Val := none
  type : ParType := .numeric
  depends : Option Nat := none
  twoPart : Bool := false
  part1 : Option Nat := none
deriving Repr, DecidableEq

/-- Python `l[-k]` for `1 <= k`. (Used in `client.py:72-138`.) -/
def fromEnd (l : List Nat) (k : Nat) : Except PyErr Nat :=
  if l.length < k then .error .indexError
  else match l[l.length - k]? with
    | some x => .ok x
    | Option.none => .error .indexError

/-- `client.py:72-138` `parse_against`. `isinstance(None, ...)` is false, so an absent template never
matches. -/
def parseAgainst (type : ParType) (msg : Msg) (response : Option Msg) : Except PyErr (Option Val) :=
  match msg with
  | .sysex manufacturer data =>
    match response with
    | some (.sysex rManufacturer rData) =>
      if manufacturer ≠ rManufacturer then .ok none
      else if slice data 2 6 ≠ slice rData 2 6 then .ok none
      else
        match type with
        | .string => .ok (some (.str (slice data 6 (data.length - 1))))
        | .numeric =>
          match fromEnd data 2, fromEnd data 1 with
          | .ok a, .ok b => .ok (some (.num (a * 128 + b)))
          | .error e, _ => .error e
          | _, .error e => .error e
    | _ => .ok none
  | .cc control value _ =>
    match response with
    | some (.cc rControl _ _) => if control = rControl then .ok (some (.num value)) else .ok none
    | _ => .ok none
  | .pc patch _ =>
    match response with
    | some (.pc _ _) => .ok (some (.num patch))
    | _ => .ok none
  | .unknown _ => .ok none
  | .bad _ => .ok none

/-- `client.py:63-69` `ClientParameterMapping.parse`: the answer and the new object. Simplification: a plain
mapping has one response template; with a list (`two`) `parse_against` never matches. -/
def parsePlain (m : Mapping) (msg : Msg) : Except PyErr (Bool × Mapping) :=
  let response := match m.response with
    | .one r => some r
    | _ => none
  match parseAgainst m.type msg response with
  | .error e => .error e
  | .ok (some v) => .ok (true, { m with value := some v })
  | .ok none => .ok (false, m)

/-- `client.py:213-224` `ClientTwoPartParameterMapping.parse`. Two-part mappings are numeric; a string part
cannot be added up (`TypeError`). `self.response[0]` needs a list of two templates. -/
def parseTwoPart (m : Mapping) (msg : Msg) : Except PyErr (Bool × Mapping) :=
  match m.response with
  | .two r₀ r₁ =>
    match parseAgainst m.type msg r₀ with
    | .error e => .error e
    | .ok (some (.num v)) => .ok (true, { m with part1 := some v })
    | .ok (some _) => .error .typeError
    | .ok none =>
      match parseAgainst m.type msg r₁ with
      | .error e => .error e
      | .ok none => .ok (false, m)
      | .ok (some v₂) =>
        match m.part1, v₂ with
        | none, _ => .ok (false, m)
        | some v₁, .num v₂ => .ok (true, { m with value := some (.num (128 * v₁ + v₂)), part1 := none })
        | some _, _ => .error .typeError
  | _ => .error .typeError

/-- Dynamic dispatch of `parse`. (`client.py:63-69, 213-224`.) -/
def parse (m : Mapping) (msg : Msg) : Except PyErr (Bool × Mapping) :=
  if m.twoPart then parseTwoPart m msg else parsePlain m msg

/-- `client.py:174-175` and `227-228` `result_finished`. -/
def resultFinished (m : Mapping) : Bool := if m.twoPart then m.part1.isNone else true

/-- `client.py:158-160`: `while len(data) < 8: data.append(0)`. -/
def padTo8 (data : List Nat) : List Nat :=
  if data.length < 8 then padTo8 (data ++ [0]) else data
termination_by 8 - data.length
decreasing_by simp; omega

/-- `client.py:148-170` `__set_value` on one message: the message after the call. `bytes(data)` raises
`ValueError` for entries above 255. -/
def setMsg (type : ParType) (m : Option Msg) (value : Nat) : Except PyErr (Option Msg) :=
  match type with
  | .string => .error .exception
  | .numeric =>
    match m with
    | some (.cc control _ ch) => .ok (some (.cc control value ch))
    | some (.sysex manufacturer data) =>
      let data := ((padTo8 data).set 6 (value / 128)).set 7 (value % 128)
      if data.all (· < 256) then .ok (some (.sysex manufacturer data)) else .error .valueError
    | some (.pc _ ch) => .ok (some (.pc value ch))
    | other => .ok other

/-- The argument of `set_value`: a number or a list of numbers. (`client.py:141-146`.) -/
inductive SetVal where
  | one (n : Nat)
  | many (ns : List Nat)
deriving Repr, DecidableEq

/-- `client.py:143-144` the loop `for i in range(len(self.set))`, with `value[i]`. -/
def setMany (type : ParType) : List (Option Msg) → List Nat → Except PyErr (List (Option Msg))
  | [], _ => .ok []
  | _ :: _, [] => .error .indexError
  | m :: ms, v :: vs =>
    match setMsg type m v with
    | .error e => .error e
    | .ok m' =>
      match setMany type ms vs with
      | .error e => .error e
      | .ok ms' => .ok (m' :: ms')

/-- `client.py:141-146` `set_value`: the `set` field after the call. A list value for a single message is a
`TypeError` (for SysEx here, for CC and PC when sending; the model raises it here). -/
def setValue (type : ParType) (field : MsgField) (value : SetVal) : Except PyErr MsgField :=
  match field, value with
  | .many ms, .many vs =>
    match setMany type ms vs with
    | .error e => .error e
    | .ok ms' => .ok (.many ms')
  | .many [], .one _ => .ok (.many [])
  | .many (_ :: _), .one _ => .error .typeError
  | .one m, .one v =>
    match setMsg type (some m) v with
    | .error e => .error e
    | .ok (some m') => .ok (.one m')
    | .ok none => .ok .none
  | .one _, .many _ => .error .typeError
  | .none, _ =>
    match type with
    | .string => .error .exception
    | .numeric => .ok .none

/-- `client.py:13` the class attribute `_mappings`: names and objects in creation order. An object is
identified by its position; `D` is everything that is passed to the constructor. -/
structure Store (D : Type) where
  mappings : List (String × D) := []

/-- `client.py:21-23` / `188-190`: the loop looking for the name. -/
def findName {D : Type} (name : String) : List (String × D) → Nat → Option Nat
  | [], _ => none
  | (n, _) :: rest, i => if n = name then some i else findName name rest (i + 1)

/-- `client.py:17-37` (`twoPart = false`) and `186-203` (`twoPart = true`) `get`. `d` are the other arguments.
Only the first variant rejects an empty name. Result: the object. -/
def get {D : Type} (s : Store D) (twoPart : Bool) (name : String) (d : D) : Store D × Except PyErr Nat :=
  if twoPart = false ∧ name = "" then (s, .error .exception)
  else
    match findName name s.mappings 0 with
    | some i => (s, .ok i)
    | none => (⟨s.mappings ++ [(name, d)]⟩, .ok s.mappings.length)

/-- A history of `get` calls. (No code of its own: repeated `client.py:17-37`.) -/
def gets {D : Type} : Store D → List (Bool × String × D) → Store D × List (Except PyErr Nat)
  | s, [] => (s, [])
  | s, (t, n, d) :: cs =>
    let r := get s t n d
    let rest := gets r.1 cs
    (rest.1, r.2 :: rest.2)

end PySwitch.Mapping
