namespace PySwitch

/-- Induction on a list from its end. -/
@[elab_as_elim]
theorem snocInduction {α : Type _} {motive : List α → Prop} (l : List α)
    (nil : motive []) (snoc : ∀ xs x, motive xs → motive (xs ++ [x])) : motive l := by
  have h : ∀ r : List α, motive r.reverse := by
    intro r
    induction r with
    | nil => simpa using nil
    | cons x xs ih => rw [List.reverse_cons]; exact snoc _ _ ih
  simpa using h l.reverse

theorem foldl_append_singleton {α} (l acc : List α) :
    l.foldl (fun calls u => calls ++ [u]) acc = acc ++ l := by
  induction l generalizing acc with
  | nil => simp
  | cons x xs ih => simp only [List.foldl_cons]; rw [ih]; simp

theorem filterMap_congr' {α β : Type _} {f g : α → Option β} {l : List α} (h : ∀ x ∈ l, f x = g x) :
    l.filterMap f = l.filterMap g := by
  induction l with
  | nil => rfl
  | cons a l ih =>
    rw [List.filterMap_cons, List.filterMap_cons, h a (by simp), ih (fun x hx => h x (by simp [hx]))]

end PySwitch
