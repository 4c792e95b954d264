/-!
Model of the MIDI monitor of the editor (`web/htdocs/js/ui/misc/MidiMonitor.js`, with its part of `web/htdocs/js/misc/LocalState.js`).

Left out: the texts of the rows (how bytes and values are written), the buttons for them, and scrolling. The name of a message, which the virtual clients
determine, is part of the event; it is never empty (`VirtualKemperClient.js:55-73`).
-/

namespace PySwitch.Monitor

/-- A row of the table: a message (`MidiMonitor.js:338-372`) or a comment (`MidiMonitor.js:384-389`). -/
inductive Row where
  | message (incoming : Bool) (bytes : List Nat) (name : Option String)
  | comment (text : String)
deriving Repr, DecidableEq

/-- An ignored message (`MidiMonitor.js:341-344`). -/
structure Entry where
  bytes : List Nat
  name : Option String
deriving Repr, DecidableEq

/-- The table, `#run` and `#exclude` (`MidiMonitor.js:6-13`), and what is in the local storage for the last two. -/
structure State where
  rows : List Row := []
  run : Bool := false
  exclude : List Entry := []
  storedRun : Bool := false
  storedExclude : List Entry := []
deriving Repr, DecidableEq

/-- What happens: a message is monitored, the button to ignore a message of the table is clicked, an ignored message is removed from the list of them, the table
is cleared, the monitor is resumed or stopped (also when the tab is left), the page is loaded again. -/
inductive Ev where
  | message (incoming : Bool) (bytes : List Nat) (name : Option String)
  | ignore (entry : Entry)
  | unignore (entry : Entry)
  | clear
  | resume
  | stop
  | reload
deriving Repr, DecidableEq

/-- `MidiMonitor.js:7`. -/
def maxRows : Nat := 100

/-- `MidiMonitor.js:513-517` `#cleanup`: remove the first row while there are too many. -/
def cleanup (rows : List Row) : List Row :=
  if rows.length > maxRows then
    match rows with
    | [] => []
    | _ :: rows => cleanup rows
  else rows

/-- `MidiMonitor.js:399-410` `#doExclude` for one entry of the list. -/
def matchesEntry (e : Entry) (bytes : List Nat) (name : Option String) : Bool :=
  match name, e.name with
  | some n, some m => m == n
  | _, _ => bytes.take e.bytes.length == e.bytes

/-- `MidiMonitor.js:399-410` `#doExclude`. -/
def doExclude (exclude : List Entry) (bytes : List Nat) (name : Option String) : Bool := exclude.any fun e => matchesEntry e bytes name

/-- `MidiMonitor.js:325-377` `addMessage`, `MidiMonitor.js:382-394` `addComment`: append a row. -/
def State.add (s : State) (r : Row) : State := { s with rows := cleanup (s.rows ++ [r]) }

/-- One event. `MidiMonitor.js:325-377` `addMessage`; 439-448 `#excludeMessage` and 453-461 `#includeMessage`, which compare the bytes only (neither object has
an attribute `name`); 506-508 `#clear`; 258-269 `#resume`; 274-285 `#stop`; 34-36, 144 in the constructor. -/
def State.step (s : State) : Ev → State
  | .message i b n => if !s.run then s else if doExclude s.exclude b n then s else s.add (.message i b n)
  | .ignore e =>
    if s.exclude.any fun x => x.bytes == e.bytes then s
    else { s with exclude := s.exclude ++ [e], storedExclude := s.exclude ++ [e] }
  | .unignore e =>
    { s with exclude := s.exclude.filter (fun x => x.bytes != e.bytes), storedExclude := s.exclude.filter (fun x => x.bytes != e.bytes) }
  | .clear => { s with rows := [] }
  | .resume =>
    let s := if !s.run then s.add (.comment "resumed") else s
    { s with run := true, storedRun := true }
  | .stop =>
    let s := if s.run then s.add (.comment "stopped") else s
    { s with run := false, storedRun := false }
  | .reload => { rows := [], run := s.storedRun, exclude := s.storedExclude, storedRun := s.storedRun, storedExclude := s.storedExclude }

/-- A history, beginning with an empty local storage. -/
def run (es : List Ev) : State := es.foldl State.step {}

end PySwitch.Monitor
