import Verif.Model.Preview
/-
Specification vocabulary for value previews.
-/
namespace PySwitch.Preview

/-- The normal text of the label after some operations: the latest content. -/
def latestContent (s : String) : List Op → String
  | [] => s
  | .content t :: os => latestContent t os
  | _ :: os => latestContent s os

/-- The clients which have shown previews, the first ones first. -/
def previewers : List Op → List Nat → List Nat
  | [], ks => ks
  | .preview _ r :: os, ks =>
    match r.client with
    | none => previewers os ks
    | some k => previewers os (if k ∈ ks then ks else ks ++ [k])
  | _ :: os, ks => previewers os ks

/-- Neither a new preview nor a reset. -/
def Op.passive : Op → Bool
  | .update _ => true
  | .content _ => true
  | _ => false

/-- An update after the time `t`. -/
def Op.updateAfter (t : Int) : Op → Bool
  | .update s => t < s
  | _ => false

end PySwitch.Preview
