import Verif.Model.Bridge

/-!
The file transfer: text, and the messages as they are described at the top of `JsMidiBridge.js` (lines 33-80).
-/

namespace PySwitch.Spec.Bridge
open PySwitch.Bridge

/-- Well-formed text: surrogates come in pairs, the high one first. -/
inductive WellFormed : Str → Prop
  | nil : WellFormed []
  | unit (u : Nat) (s : Str) : u < 0x10000 → ¬(0xD800 ≤ u ∧ u < 0xE000) → WellFormed s → WellFormed (u :: s)
  | pair (h l : Nat) (s : Str) : 0xD800 ≤ h ∧ h < 0xDC00 → 0xDC00 ≤ l ∧ l < 0xE000 → WellFormed s →
      WellFormed (h :: l :: s)

/-- Text which can be sent in one piece: well-formed, and not starting with a byte order mark. -/
def Sendable (s : Str) : Prop := WellFormed s ∧ s.head? ≠ some 0xFEFF

/-- The `i`-th piece of a text which is sent in pieces of this size. -/
def piece (text : Str) (size i : Nat) : Str := (text.drop (i * size)).take size

/-- Number of pieces. -/
def pieces (text : Str) (size : Nat) : Nat := text.length / size + if text.length % size = 0 then 0 else 1

/-- Text which can be sent in pieces of this size: no piece ends inside of a surrogate pair or starts with a byte
order mark. (For text without surrogates and byte order marks, this holds for every size.) -/
def SendableIn (text : Str) (size : Nat) : Prop := ∀ i, Sendable (piece text size i)

/-! ### Two bridges -/

/-- Two bridges, one on each side of a connection. `toSide s` are the messages on their way to side `s`, in the order
of sending; `told s` is what the bridge of side `s` told its application. -/
structure Sys where
  bridge : Bool → Bridge
  toSide : Bool → List Bytes
  told : Bool → List Eff

/-- The application on one side sends a text or asks for a file, or the first message on its way to a side is received. -/
inductive Event where
  | send (side : Bool) (now : Nat) (path text : Str) (size : Nat) (type : Bytes)
  | request (side : Bool) (path : Str) (size : Nat)
  | deliver (side : Bool) (now : Nat)
deriving DecidableEq

/-- The messages among the effects. -/
def sysexOf : List Eff → List Bytes
  | [] => []
  | .sysex d :: r => d :: sysexOf r
  | _ :: r => sysexOf r

/-- The callbacks among the effects. -/
def callbacksOf : List Eff → List Eff
  | [] => []
  | .sysex _ :: r => callbacksOf r
  | e :: r => e :: callbacksOf r

/-- The value at one side is replaced. -/
def upd {α : Type} (f : Bool → α) (s : Bool) (v : α) : Bool → α := fun t => if t = s then v else f t

/-- The bridge of a side has done something: its messages are on their way to the other side. -/
def Sys.did (x : Sys) (s : Bool) (r : Res) : Sys :=
  { bridge := upd x.bridge s r.bridge
    toSide := upd x.toSide (!s) (x.toSide (!s) ++ sysexOf r.effs)
    told := upd x.told s (x.told s ++ callbacksOf r.effs) }

/-- The files which a side has to offer. -/
abbrev Files := Bool → Str → Except Str (Option Str)

/-- One event. -/
def Sys.step (files : Files) (x : Sys) : Event → Sys
  | .send s now path text size type => x.did s (sendString now path text size type (x.bridge s))
  | .request s path size => x.did s (request path size (x.bridge s))
  | .deliver s now =>
    match x.toSide s with
    | [] => x
    | m :: rest =>
      let x := { x with toSide := upd x.toSide s rest }
      x.did s (receive (files s) now [0x00, 0x7c, 0x7d] m (x.bridge s)).2

def Sys.run (files : Files) (x : Sys) (es : List Event) : Sys := es.foldl (Sys.step files) x

/-- Nothing has happened so far; the random numbers (lines 392-401) have been drawn. -/
def Sys.start (seed : Bool → Nat) (throws : Bool → Bool) : Sys :=
  { bridge := fun s => { nextId := seed s, throws := throws s }, toSide := fun _ => [], told := fun _ => [] }

/-- What can be delivered: a file (path and contents), or an error (its text). -/
abbrev Delivery := Option Str × Str

/-- Files and errors of which the application has been told. -/
def received : List Eff → List Delivery
  | [] => []
  | .receiveFinish _ path data _ :: r => (some path, data) :: received r
  | .onError text :: r => (none, text) :: received r
  | _ :: r => received r

/-- The id of the next transmission is not in use, and no transmission has been idle for too long. -/
def Ready (now : Nat) (b : Bridge) : Prop :=
  (∀ e ∈ b.sends, e.1 ≠ number2bytes b.nextId 3) ∧
  (∀ e ∈ b.sends, ∀ t, e.2.time = some t → now ≤ t + 5000) ∧ ∀ e ∈ b.recvs, ∀ t, e.2.time = some t → now ≤ t + 5000

/-- A text which can be sent. -/
def Proper (path text : Str) (size : Nat) : Prop :=
  Sendable path ∧ text ≠ [] ∧ 1 ≤ size ∧ pieces text size < 16777216 ∧ SendableIn text size

/-- The side of the event can do what it is asked for: what is sent is a proper text, a file which is asked for exists
and is proper, and the transmissions are in use (no one is idle for more than five seconds while another one is started, and
the ids of the transmissions on the way differ). -/
def Fair (files : Files) (x : Sys) : Event → Prop
  | .send s now path text size type => Proper path text size ∧ (type = typeFile ∨ type = typeError) ∧ Ready now (x.bridge s)
  | .request s path size => path ≠ [] ∧ Sendable path ∧ 1 ≤ size ∧ size < 16777216 ∧
      ∃ text, files (!s) path = .ok (some text) ∧ Proper path text size
  | .deliver s now => Ready now (x.bridge s)

/-- All events of an execution are fair. -/
def FairRun (files : Files) : Sys → List Event → Prop
  | _, [] => True
  | x, e :: es => Fair files x e ∧ FairRun files (x.step files e) es

/-- What the side has to get: files and errors sent to it, and files asked for by it. -/
def expected (files : Files) (s : Bool) : List Event → List Delivery
  | [] => []
  | .send t _ path text _ type :: es => (if t = !s then [(if type = typeFile then some path else none, text)] else []) ++ expected files s es
  | .request t path _ :: es =>
    (match files (!s) path with
      | .ok (some text) => if t = s then [(some path, text)] else []
      | _ => []) ++ expected files s es
  | .deliver _ _ :: es => expected files s es

/-- The number of messages which are needed. -/
def cost (files : Files) : List Event → Nat
  | [] => 0
  | .send _ _ _ text size _ :: es => 2 * pieces text size + 1 + cost files es
  | .request t path size :: es =>
    (match files (!t) path with
      | .ok (some text) => 2 * pieces text size + 2
      | _ => 0) + cost files es
  | .deliver _ _ :: es => cost files es

/-- The number of messages which have been received. -/
def delivered (files : Files) : Sys → List Event → Nat
  | _, [] => 0
  | x, e :: es =>
    (match e with
      | .deliver s _ => if x.toSide s = [] then 0 else 1
      | _ => 0) + delivered files (x.step files e) es

/-! ### Two bridges with an unreliable connection -/

/-- As above, but any message which was ever sent to a side can be received there, in any order, any number of times or never;
and also damaged messages can be received, as long as the checksum shows the damage. A side can also begin (or stop) to throw its errors instead of sending them. -/
inductive WildEvent where
  | send (side : Bool) (now : Nat) (path text : Str) (size : Nat) (type : Bytes)
  | request (side : Bool) (path : Str) (size : Nat)
  | deliver (side : Bool) (now : Nat) (i : Nat)
  | noise (side : Bool) (now : Nat) (data : Bytes)
  | mode (side : Bool) (throws : Bool)
deriving DecidableEq

/-- One event; `toSide` are all messages ever sent to a side. -/
def Sys.wild (files : Files) (x : Sys) : WildEvent → Sys
  | .send s now path text size type => x.did s (sendString now path text size type (x.bridge s))
  | .request s path size => x.did s (request path size (x.bridge s))
  | .deliver s now i =>
    match (x.toSide s)[i]? with
    | none => x
    | some m => x.did s (receive (files s) now [0x00, 0x7c, 0x7d] m (x.bridge s)).2
  | .noise s now data =>
    if getChecksum (data.drop 4) = (data.take 4).drop 1 then x
    else x.did s (receive (files s) now [0x00, 0x7c, 0x7d] data (x.bridge s)).2
  | .mode s t => x.did s ⟨{ x.bridge s with throws := t }, [], none⟩

def Sys.wildRun (files : Files) (x : Sys) (es : List WildEvent) : Sys := es.foldl (Sys.wild files) x

/-- Text which can be sent in chunks of any size. -/
def Good (text : Str) : Prop := text ≠ [] ∧ text.length < 16777216 ∧ ∀ size, SendableIn text size

/-- Files and errors are sent, and paths and contents of files are good text. -/
def WildEvent.Good : WildEvent → Prop
  | .send _ _ path text _ type => (type = typeFile ∧ Sendable path ∧ Bridge.Good text) ∨ type = typeError
  | .request _ path _ => Sendable path
  | _ => True

end PySwitch.Spec.Bridge
