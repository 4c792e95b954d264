/-!
Model of the traffic statistics of the virtual device (`web/htdocs/clients/kemper/virtual/VirtualKemperStats.js:1-72`) and of what is shown of them
(`VirtualKemperClientUI.js:109-137, 268-271`).

Simplified: times are whole milliseconds; texts are numbers and lists.
-/
namespace PySwitch.TrafficRate

/-- The data of the last measurement. (`VirtualKemperStats.js:3-8, 53-58`.) -/
structure Data (α : Type) where
  receiveRate : Int
  sendRate : Int
  messagesSent : List α
  messagesReceived : List α

/-- The state. `shown` is the text of the two indicators. (`VirtualKemperStats.js:3-16`, `VirtualKemperClientUI.js:268-271`.) -/
structure State (α : Type) where
  data : Data α
  sent : List α
  received : List α
  lastTime : Nat
  shown : Option (Int × Int)

/-- What happens: a message arrives or is sent, or the timer runs out at a time. (`VirtualKemperStats.js:35-47, 52, 68-71`.) -/
inductive Ev (α : Type) where
  | received (m : α)
  | sent (m : α)
  | measure (now : Nat)

/-- `Math.round(count * factor)` with the factor of line 53: the integer part of the product and a half. (`VirtualKemperStats.js:53, 56-57`.) -/
def rate (count : Nat) (now last : Nat) : Int := ((count : Int) * ((now : Int) - last) * 2 + 1000) / 2000

/-- `VirtualKemperStats.js:52-72` `#measure`, with `reset` of lines 22-26 and the callback of `VirtualKemperClientUI.js:268-271`. -/
def takeMeasure (s : State α) (now : Nat) : State α :=
  let data : Data α := ⟨rate s.received.length now s.lastTime, rate s.sent.length now s.lastTime, s.sent, s.received⟩
  ⟨data, [], [], now, some (data.receiveRate, data.sendRate)⟩

/-- One event. (`VirtualKemperStats.js:35-47, 52-72`.) -/
def State.step (s : State α) : Ev α → State α
  | .received m => { s with received := s.received ++ [m] }
  | .sent m => { s with sent := s.sent ++ [m] }
  | .measure now => takeMeasure s now

/-- `VirtualKemperStats.js:18-20` the constructor at a time, without callbacks yet. -/
def init (now : Nat) : State α := { takeMeasure ⟨⟨0, 0, [], []⟩, [], [], 0, none⟩ now with shown := none }

/-- Several events. -/
def State.run (s : State α) (es : List (Ev α)) : State α := es.foldl State.step s

end PySwitch.TrafficRate
