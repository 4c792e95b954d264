import Verif.Model.Misc
import Verif.Model.Num

/-!
Model of the memory monitoring (`content/lib/pyswitch/stats.py`) and of `format_size`
(`content/lib/pyswitch/misc.py`). Texts are lists of characters.
-/

namespace PySwitch.Stats

/-- The format `.1f` of a number which is at least one tenth away from zero, or zero
(`content/lib/pyswitch/misc.py:31, 33`). The number is rounded to the nearest tenth, halves to the
even one. The minimum width 3 is always reached. -/
def tenths (num : Rat) : List Char :=
  let t := pyRound (num * 10)
  (if t < 0 then ['-'] else []) ++ (Nat.repr (t.natAbs / 10)).toList ++ ['.'] ++
    (Nat.repr (t.natAbs % 10)).toList

/-- `content/lib/pyswitch/misc.py:29-34`: the loop over the units, and the text after it (without
space). Simplification: the quotients are exact (floats: as long as there are enough bits). -/
def sizeLoop (suffix : List Char) : List String → Rat → List Char
  | [], num => tenths num ++ "Yi".toList ++ suffix
  | unit :: units, num =>
    if -1024 < num ∧ num < 1024 then tenths num ++ [' '] ++ unit.toList ++ suffix
    else sizeLoop suffix units (num / 1024)

/-- `content/lib/pyswitch/misc.py:28-34`: `format_size`, with the suffix "B". -/
def formatSize (num : Int) (fillUpToNum : Int := 0) : List Char :=
  fillUpTo (sizeLoop ['B'] ["", "Ki", "Mi", "Gi", "Ti", "Pi", "Ei", "Zi"] num) fillUpToNum

/-- `content/lib/pyswitch/stats.py:17-18`: the class attributes of `Memory`. -/
structure State where
  totalBytes : Int := -1
  lastFree : Int := -1
deriving Repr, DecidableEq

/-- The numbers of one line of output. (`stats.py:42-68`.) -/
structure Report where
  allocated : Int
  free : Int
  percent : Int
deriving Repr, DecidableEq

/-- The lines which are printed. (`stats.py:25-68`.) -/
inductive Line where
  /-- `content/lib/pyswitch/stats.py:37-38` -/
  | starting (free total : Int)
  /-- `content/lib/pyswitch/stats.py:68` -/
  | report (r : Report)
deriving Repr, DecidableEq

/-- `content/lib/pyswitch/stats.py:25-38`: `start`. `free` and `allocated` are what the garbage
collector tells. -/
def start (free allocated : Int) : State × Line :=
  let total := allocated + free
  ({ totalBytes := total, lastFree := free }, .starting free total)

/-- `content/lib/pyswitch/stats.py:42-68`: `watch`. Simplification: the total is not zero here (a
running interpreter has some memory), otherwise the division raises an exception. -/
def watch (s : State) (free : Int) (onlyIfChanged : Bool) : State × Option Line :=
  if s.totalBytes < 0 then (s, none)
  else if onlyIfChanged && free == s.lastFree then (s, none)
  else
    ({ s with lastFree := free },
      some (.report ⟨s.lastFree - free, free, pyInt ((free : Rat) / (s.totalBytes : Rat) * 100)⟩))

/-- `content/lib/pyswitch/stats.py:78-80`: `_convert_prefix`. An empty prefix is like none. -/
def prefixText (pre : List Char) : List Char :=
  fillUpTo (if pre = [] then [] else pre ++ [' ']) 60 '.' ++ [' ']

/-- The text of a line: `content/lib/pyswitch/stats.py:37-38` and `:54-68`. -/
def Line.text (pre : List Char) : Line → List Char
  | .starting free total =>
    prefixText pre ++ fillUpTo ("Starting with ".toList ++ formatSize free ++ " of ".toList ++
      formatSize total) 63
  | .report r =>
    let alloc := if r.allocated = 0 then List.replicate 12 ' ' else formatSize r.allocated 12
    let descr := if r.allocated > 0 then "Allocated "
      else if r.allocated < 0 then "Released  " else "          "
    prefixText pre ++ descr.toList ++ alloc ++ "  -> ".toList ++ formatSize r.free 15 ++ [' '] ++
      fillUpTo ((if r.percent < 0 then ['-'] else []) ++ (Nat.repr r.percent.natAbs).toList ++ ['%']) 4 ++ [' ']

/-- The calls. (`stats.py:25-68`.) -/
inductive Op where
  | start (free allocated : Int)
  | watch (free : Int) (onlyIfChanged : Bool)
deriving Repr, DecidableEq

/-- One call, with the line which is printed, if any. (`stats.py:25-68`.) -/
def step (s : State) : Op → State × Option Line
  | .start free allocated => let r := start free allocated; (r.1, some r.2)
  | .watch free only => watch s free only

/-- The calls of a history, and what each has printed. (No code of its own: a history of `step`.) -/
def run : State → List Op → State × List (Option Line)
  | s, [] => (s, [])
  | s, op :: ops =>
    let r := step s op
    let rest := run r.1 ops
    (rest.1, r.2 :: rest.2)

end PySwitch.Stats
