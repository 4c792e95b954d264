import Verif.Model.Misc
/-
Specifications for `misc.py`, independent of how the model works.
-/
namespace PySwitch.Spec

/-- The time of an event. -/
def eventTime : PeriodEvent → Int
  | .poll t => t
  | .reset t => t

/-- The instant from which a period is counted, read off an observable trace (oldest entry first):
the latest reset or positively answered poll, and 0 if there is none. -/
def lastMark (trace : List (PeriodEvent × Bool)) : Int :=
  match trace.reverse.find? (fun e => match e with
    | (.reset _, _) => true
    | (.poll _, b) => b) with
  | some (e, _) => eventTime e
  | none => 0

/-- The events of a list happen at non-decreasing clock readings. -/
def Chronological (es : List PeriodEvent) : Prop :=
  es.Pairwise (fun a b => eventTime a ≤ eventTime b)

/-- `out` lists the elements of `hist` which satisfy `keep`, each exactly once, ordered by their first
occurrence in `hist`. -/
structure FirstOccurrences (keep : Nat → Bool) (hist out : List Nat) : Prop where
  complete : ∀ u, u ∈ out ↔ u ∈ hist ∧ keep u = true
  once : ∀ u ∈ out, out.count u = 1
  ordered : out.Pairwise (fun a b => hist.idxOf a < hist.idxOf b)

end PySwitch.Spec
