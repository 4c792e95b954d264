/-!
Model of the input for the tempo of the emulated Kemper device, with the parameter for the tempo (`web/htdocs/clients/kemper/virtual/VirtualKemperClientUI.js:155-170, 257-260`,
`VirtualKemperTempo.js`, `VirtualKemperClientSetup.js:111-130`, `VirtualKemperParameter.js:203-217`).

Simplified: numbers typed are from 0 on (a text which is no number is like 0). Times are in milliseconds and never go back. Fractions are exact. Sending is left out (see `Model/VirtualMachine.lean`).
-/
namespace PySwitch.TempoInput

/-- The result of `bpm()`: `null`, a number or `Infinity`. (`VirtualKemperTempo.js:30-34`.) -/
inductive Bpm where
  | null
  | number (n : Nat)
  | infinity
deriving DecidableEq, Repr

/-- The interval of the period counter, as the fraction `num / den` in milliseconds. (`VirtualKemperTempo.js:4, 50, 74`.) -/
structure Period where
  num : Nat
  den : Nat
deriving DecidableEq, Repr

/-- The period (`VirtualKemperTempo.js:4`), the time of the last tap (5), the value of the parameter "Tempo (BPM)" (`VirtualKemperClientSetup.js:121`), the value of the parameter
"Tap Tempo" (116) and the content of the input (`VirtualKemperClientUI.js:159`). -/
structure Tempo where
  period : Option Period
  lastTap : Option Nat
  value : Nat
  button : Nat
  input : Bpm
deriving DecidableEq, Repr

/-- `VirtualKemperTempo.js:30-34` `bpm`. `Math.round` rounds halves up. -/
def bpm : Option Period → Bpm
  | none => .null
  | some p => if p.num = 0 then .infinity else .number ((60000 * p.den + p.num) / (2 * p.num))

/-- `VirtualKemperTempo.js:39-50`: the period `set` stores. -/
def periodOf (bpm : Nat) : Option Period := if bpm = 0 then none else some ⟨30000, bpm⟩

/-- `VirtualKemperClientSetup.js:125-129`: the value of the parameter for a tempo. (`null * 64` is 0.) -/
def encode : Bpm → Nat
  | .null => 0
  | .number n => if 256 ≤ n then 16383 else n * 64
  | .infinity => 16383

/-- `VirtualKemperClientSetup.js:122`: the tempo for a value of the parameter. -/
def decode (value : Nat) : Nat := if value = 16383 then 256 else (value + 32) / 64

/-- `VirtualKemperParameter.js:203-217` `setValue` of the parameter. For another value, its callback (`VirtualKemperClientSetup.js:121-123`) sets the tempo (`VirtualKemperTempo.js:39-55`), which
calls the callbacks of the tempo: the first one sets the parameter again (`VirtualKemperClientSetup.js:125-129`), the second one writes the input (`VirtualKemperClientUI.js:258-260`). `fuel` bounds
the depth of the calls: three are enough (`C211.fuel` in `Props/TempoInput.lean`). -/
def write : Nat → Tempo → Nat → Tempo
  | 0, s, _ => s
  | fuel + 1, s, v =>
    if s.value = v then s
    else
      let t := { s with value := v, period := periodOf (decode v) }
      let u := write fuel t (encode (bpm t.period))
      { u with input := bpm u.period }

/-- The callbacks of the tempo, in the order they have been added. Each gets the tempo of the moment it is called. (`VirtualKemperTempo.js:43-45, 52-54, 76-78`.) -/
def Tempo.notify (s : Tempo) : Tempo :=
  let u := write 3 s (encode (bpm s.period))
  { u with input := bpm u.period }

/-- `VirtualKemperTempo.js:39-55` `set`. -/
def Tempo.set (s : Tempo) (bpm : Nat) : Tempo := Tempo.notify { s with period := periodOf bpm }

/-- `VirtualKemperTempo.js:60-79` `tap`. -/
def Tempo.tap (s : Tempo) (now : Nat) (value : Nat) : Tempo :=
  if value ≠ 1 then s
  else
    match s.lastTap with
    | none => { s with lastTap := some now }
    | some last =>
      if 3000 < now - last then { s with lastTap := some now }
      else Tempo.notify { s with lastTap := some now, period := some ⟨now - last, 2⟩ }

/-- What happens: the user types a tempo (`VirtualKemperClientUI.js:160-168`), a message sets the parameter for the tempo (`VirtualKemperClientSetup.js:121`) or the one of the tap button (116). -/
inductive Event where
  | type (n : Nat)
  | message (value : Nat)
  | tap (now : Nat) (value : Nat)

/-- One event. The callback of the tap button is only called for another value (`VirtualKemperParameter.js:204`). -/
def Tempo.step (s : Tempo) : Event → Tempo
  | .type n => s.set n
  | .message v => write 3 s v
  | .tap now v => if s.button = v then s else Tempo.tap { s with button := v } now v

/-- The start: 120 BPM. (`VirtualKemperTempo.js:15`, `VirtualKemperClientSetup.js:116-121`, `VirtualKemperClientUI.js:159`.) -/
def Tempo.init : Tempo := ⟨periodOf 120, none, 7680, 0, .number 120⟩

/-- A history. (No code of its own: a history of `step`.) -/
def Tempo.run (s : Tempo) (es : List Event) : Tempo := es.foldl Tempo.step s

end PySwitch.TempoInput
