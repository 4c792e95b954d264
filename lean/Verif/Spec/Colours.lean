import Verif.Model.Colours
/-!
Colours, independently of the implementation.
-/
namespace PySwitch.Colours.Spec
open PySwitch.Properties (Text)

/-- The parts of a colour, each from 0 to 255. -/
structure Colour where
  r : Nat
  g : Nat
  b : Nat
deriving DecidableEq, Repr

def Colour.Valid (c : Colour) : Prop := c.r < 256 ∧ c.g < 256 ∧ c.b < 256

/-- The hexadecimal digits. -/
def hexDigit (n : Nat) : Char := ("0123456789abcdef".toList[n]?).getD '0'

def hexPair (n : Nat) : Text := [hexDigit (n / 16), hexDigit (n % 16)]

/-- A colour in HTML. -/
def Colour.html (c : Colour) : Text := '#' :: (hexPair c.r ++ hexPair c.g ++ hexPair c.b)

def decimal (n : Nat) : Text := (toString n).toList

def blanks (n : Nat) : Text := List.replicate n ' '

/-- A number with blanks around it. -/
def padded (p : Nat × Nat) (n : Nat) : Text := blanks p.1 ++ decimal n ++ blanks p.2

/-- A colour in Python, with any blanks around the numbers. -/
def Colour.tuple (c : Colour) (p q r : Nat × Nat) : Text :=
  ['('] ++ padded p c.r ++ [','] ++ padded q c.g ++ [','] ++ padded r c.b ++ [')']

/-- As it is usually written. -/
def Colour.python (c : Colour) : Text := c.tuple (0, 0) (1, 0) (1, 0)

/-- The colours of the firmware by name. -/
def named : List (String × Colour) :=
  [("WHITE", ⟨255, 255, 255⟩), ("YELLOW", ⟨255, 255, 0⟩), ("DARK_YELLOW", ⟨130, 130, 0⟩), ("ORANGE", ⟨255, 125, 0⟩), ("RED", ⟨255, 0, 0⟩),
    ("LIGHT_RED", ⟨255, 100, 100⟩), ("PINK", ⟨255, 125, 70⟩), ("PURPLE", ⟨180, 0, 120⟩), ("DARK_PURPLE", ⟨100, 0, 65⟩),
    ("LIGHT_GREEN", ⟨100, 255, 100⟩), ("GREEN", ⟨0, 255, 0⟩), ("DARK_GREEN", ⟨73, 110, 41⟩), ("TURQUOISE", ⟨64, 242, 208⟩),
    ("CYAN", ⟨0, 255, 255⟩), ("BLUE", ⟨0, 0, 255⟩), ("LIGHT_BLUE", ⟨100, 100, 255⟩), ("DARK_BLUE", ⟨0, 0, 120⟩), ("GRAY", ⟨190, 190, 190⟩),
    ("DARK_GRAY", ⟨50, 50, 50⟩), ("BLACK", ⟨0, 0, 0⟩)]

end PySwitch.Colours.Spec
