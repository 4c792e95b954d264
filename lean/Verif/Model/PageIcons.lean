/-!
Model of the colours of the page marks in the editor (`web/htdocs/js/ui/parser/ParserFrontendIcons.js:93-106`): each action which belongs to a page has a mark,
in the colour of the page if it has one (`Model/PageColour.lean`), and else in one of five colours.
-/
namespace PySwitch.PageIcons

abbrev Text := List Char

/-- The colours in use, by key, and the next one. (`ParserFrontendIcons.js:6-7, 10-13`.) -/
structure State where
  colors : List (Text × Nat) := []
  next : Nat := 0
deriving DecidableEq, Repr

/-- `ParserFrontendIcons.js:97, 99, 105`: the key. -/
def key (pager page : Text) : Text := pager ++ page

/-- `Map.get`, for `ParserFrontendIcons.js:97, 105`. -/
def State.find (s : State) (k : Text) : Option Nat := (s.colors.find? fun e => e.1 == k).map (·.2)

/-- `ParserFrontendIcons.js:96-106` `#getPageColorId`: the colour, and the new state. -/
def State.color (s : State) (pager page : Text) : State × Nat :=
  match s.find (key pager page) with
  | some c => (s, c)
  | none => (⟨s.colors ++ [(key pager page, s.next)], if s.next + 1 ≥ 5 then 0 else s.next + 1⟩, s.next)

/-- The marks of some actions, one after the other. (No code of its own.) -/
def State.marks (s : State) : List (Text × Text) → State × List Nat
  | [] => (s, [])
  | a :: as =>
    let r := s.color a.1 a.2
    let rest := r.1.marks as
    (rest.1, r.2 :: rest.2)

end PySwitch.PageIcons
