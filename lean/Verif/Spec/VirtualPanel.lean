import Verif.Model.VirtualPanel
/-!
When effects and the tuner are on, and the names of notes.
-/
namespace PySwitch.VirtualPanel.Spec
open PySwitch.VirtualPanel

/-- Effects are on for each value but 0, the tuner for value 1. -/
def isOn : Kind → Nat → Prop
  | .tuner, v => v = 1
  | _, v => v ≠ 0

/-- Note letters, with the number of semitones above C. B and H are the same note. -/
inductive Letter where
  | C | D | E | F | G | A | B | H
deriving DecidableEq

def Letter.pitch : Letter → Nat
  | .C => 0 | .D => 2 | .E => 4 | .F => 5 | .G => 7 | .A => 9 | .B => 11 | .H => 11

def Letter.char : Letter → Char
  | .C => 'C' | .D => 'D' | .E => 'E' | .F => 'F' | .G => 'G' | .A => 'A' | .B => 'B' | .H => 'H'

def Letter.small : Letter → Char
  | .C => 'c' | .D => 'd' | .E => 'e' | .F => 'f' | .G => 'g' | .A => 'a' | .B => 'b' | .H => 'h'

/-- A sharp is a semitone up, a flat a semitone down. -/
inductive Accidental where
  | natural | sharp | flat
deriving DecidableEq

def Accidental.text : Accidental → List Char
  | .natural => [] | .sharp => ['#'] | .flat => ['b']

/-- The note, as a number of semitones above C within the octave. -/
def note (l : Letter) : Accidental → Nat
  | .natural => l.pitch
  | .sharp => (l.pitch + 1) % 12
  | .flat => (l.pitch + 11) % 12

/-- The texts which name a note: with a capital or a small letter. -/
def Names (text : List Char) (l : Letter) (a : Accidental) : Prop := text = l.char :: a.text ∨ text = l.small :: a.text

end PySwitch.VirtualPanel.Spec
