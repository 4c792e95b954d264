/-!
Model of the buttons and options of the MIDI monitor of the editor (`web/htdocs/js/ui/misc/MidiMonitor.js:26-146, 219-233, 256-314, 321-375, 506-508`, with its part of
`web/htdocs/js/misc/LocalState.js`).

Simplified: only rows of messages, without the texts (see `Model/MessageNames.lean`), and without the limit for the number of rows and the list of ignored messages (see `Model/Monitor.lean`).
-/
namespace PySwitch.MonitorOptions

/-- A row: are its value and its bytes visible, and are they written in hexadecimal? (`MidiMonitor.js:358-373`.) -/
structure Row where
  values : Bool
  bytes : Bool
  hex : Bool
deriving DecidableEq, Repr

/-- The local storage of the monitor. (`LocalState.js:18-49`; `none`: there is no such key.) -/
structure Stored where
  run : Option Bool := none
  bytes : Option Bool := none
  values : Option Bool := none
  hex : Option Bool := none
deriving DecidableEq, Repr

/-- What the buttons show: the icon for pause, and whether the others are active. (`MidiMonitor.js:53-100`.) -/
structure Buttons where
  pause : Bool
  bytes : Bool
  values : Bool
  hex : Bool
deriving DecidableEq, Repr

/-- The options (`MidiMonitor.js:8, 14-16`), the buttons, the hint which starts the monitor (106-113), the rows and the local storage. -/
structure Monitor where
  run : Bool
  bytes : Bool
  values : Bool
  hex : Bool
  buttons : Buttons
  hint : Bool
  rows : List Row
  stored : Stored
deriving DecidableEq, Repr

/-- `MidiMonitor.js:26-142`: the monitor when the page is loaded. (`!!null` is false.) -/
def load (st : Stored) : Monitor :=
  let run := st.run.getD false
  let hex := st.hex.getD false
  let bytes := match st.bytes with | some b => b | none => false
  let values := match st.values with | some b => b | none => true
  { run, bytes, values, hex, buttons := ⟨run, bytes, values, hex⟩, hint := !run, rows := [], stored := st }

/-- `MidiMonitor.js:259-270` `#resume`. -/
def Monitor.resume (s : Monitor) : Monitor :=
  { s with run := true, buttons := { s.buttons with pause := true }, stored := { s.stored with run := some true } }

/-- `MidiMonitor.js:275-286` `#stop`. -/
def Monitor.stop (s : Monitor) : Monitor :=
  { s with run := false, buttons := { s.buttons with pause := false }, stored := { s.stored with run := some false } }

/-- `MidiMonitor.js:291-297` `#setShowBytes`. -/
def Monitor.setBytes (s : Monitor) (b : Bool) : Monitor :=
  { s with bytes := b, rows := s.rows.map fun r => { r with bytes := b }, buttons := { s.buttons with bytes := b }, stored := { s.stored with bytes := some b } }

/-- `MidiMonitor.js:302-308` `#setShowValues`. -/
def Monitor.setValues (s : Monitor) (b : Bool) : Monitor :=
  { s with values := b, rows := s.rows.map fun r => { r with values := b }, buttons := { s.buttons with values := b }, stored := { s.stored with values := some b } }

/-- `MidiMonitor.js:313-318` `#setHexMode`. -/
def Monitor.setHex (s : Monitor) (b : Bool) : Monitor :=
  { s with hex := b, buttons := { s.buttons with hex := b }, stored := { s.stored with hex := some b } }

/-- What happens: clicks on the buttons (`MidiMonitor.js:54-99`), on the hint (109-113) or the table (119-126), the tab is left (144-147), a message (which is not ignored) is monitored
(`addMessage`, 326), the page is loaded again. -/
inductive Ev where
  | runButton
  | clearButton
  | bytesButton
  | valuesButton
  | hexButton
  | hint
  | table
  | leave
  | message
  | reload
deriving DecidableEq, Repr

/-- One event. -/
def Monitor.step (s : Monitor) : Ev → Monitor
  | .runButton => if s.run then s.stop else s.resume
  | .clearButton => { s with rows := [] }
  | .bytesButton => s.setBytes (!s.bytes)
  | .valuesButton => s.setValues (!s.values)
  | .hexButton => s.setHex (!s.hex)
  | .hint => if s.hint then { s.resume with hint := false } else s
  | .table => s.stop
  | .leave => s.stop
  | .message => if s.run then { s with rows := s.rows ++ [⟨s.values, s.bytes, s.hex⟩] } else s
  | .reload => load s.stored

/-- A history, from an empty local storage on. (No code of its own: a history of `step`.) -/
def run (es : List Ev) : Monitor := es.foldl Monitor.step (load {})

end PySwitch.MonitorOptions
