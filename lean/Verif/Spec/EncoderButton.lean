import Verif.Model.EncoderButton
/-
Specification vocabulary for encoder buttons.
-/
namespace PySwitch.EncoderButton

/-- The numbers of the encoders (in order) for which something holds. -/
def those (p : Assignment → Bool) (as : List Assignment) : List Nat :=
  (List.range as.length).filter (fun e => match as[e]? with
    | some a => p a
    | none => false)

/-- Button `k` is used for accepting only. -/
def OnlyAccepts (k : Nat) (as : List Assignment) : Prop := ∀ a ∈ as, a.cancel ≠ some k

/-- Button `k` is used for cancelling only. -/
def OnlyCancels (k : Nat) (as : List Assignment) : Prop := ∀ a ∈ as, a.accept ≠ some k

end PySwitch.EncoderButton
