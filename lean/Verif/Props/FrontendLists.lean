import Verif.Lemmas.FrontendLists

/-!
C141: edits in the lists of actions reach the configuration.
-/

namespace PySwitch.Props
open PySwitch.FrontendLists PySwitch.FrontendLists.Spec

variable {α : Type}

/-- C141 (partial: the user waits for the effects of each edit, and no restart takes place between the timers of an edit): after every history
of edits, whenever nothing is left to be done, the configuration holds exactly what the edits were meant to do one after the other, and the
lists show the configuration, first the actions for a press and then those for holding. -/
theorem C141_edits_partial (code : Config α) (known : Nat → Bool) (hk : ∀ n h, code n h ≠ [] → known n = true) (es : List (Ev α))
    (ho : Orderly (start code known) es) (hi : Idle ((start code known).run es)) :
    ((start code known).run es).code = (ops es).foldl Config.apply code ∧
      (∀ n h, acts (((start code known).run es).grid n) h = (ops es).foldl Config.apply code n h) ∧
      ∀ n, (((start code known).run es).grid n).map Item.act =
        (ops es).foldl Config.apply code n false ++ (ops es).foldl Config.apply code n true := by
  obtain ⟨h1, h2⟩ := (good_run es _ _ (good_start code known hk) ho).idle hi
  rw [h2]
  exact ⟨h1, fun n h => acts_render _ n h, fun n => render_acts _ n⟩

/-- C141: such a history can always be completed: when the user waits, all timers and restarts come to an end, and all edits have been applied. -/
theorem C141_settles (code : Config α) (known : Nat → Bool) (hk : ∀ n h, code n h ≠ [] → known n = true) (es : List (Ev α))
    (ho : Orderly (start code known) es) :
    ∃ more : List (Ev α), ops more = [] ∧ Orderly (start code known) (es ++ more) ∧ Idle ((start code known).run (es ++ more)) ∧
      ((start code known).run (es ++ more)).code = (ops es).foldl Config.apply code := by
  obtain ⟨f1, f2⟩ := fire_all _ ((start code known).run es) rfl
  obtain ⟨r1, r2⟩ := restart_all _ _ f1 rfl
  refine ⟨List.replicate ((start code known).run es).timers.length .fire ++
    List.replicate (((start code known).run es).run (List.replicate ((start code known).run es).timers.length .fire)).restarts.length .restart, ?_, ?_⟩
  · have hf : ∀ (k : Nat) (l : List (Ev α)), ops (List.replicate k .fire ++ l) = ops l := by
      intro k l
      induction k with
      | zero => rfl
      | succ k ih => rw [List.replicate_succ]; exact ih
    have hr : ∀ k : Nat, ops (List.replicate k (.restart : Ev α)) = [] := by
      intro k
      induction k with
      | zero => rfl
      | succ k ih => rw [List.replicate_succ]; exact ih
    rw [hf, hr]
  · generalize hk1 : ((start code known).run es).timers.length = k1 at *
    generalize hk2 : (((start code known).run es).run (List.replicate k1 .fire)).restarts.length = k2 at *
    have hrun : (start code known).run (es ++ (List.replicate k1 .fire ++ List.replicate k2 .restart)) =
        (((start code known).run es).run (List.replicate k1 .fire)).run (List.replicate k2 .restart) := by
      simp only [State.run, List.foldl_append]
    have hord : Orderly (start code known) (es ++ (List.replicate k1 .fire ++ List.replicate k2 .restart)) := by
      rw [orderly_append, orderly_append]
      exact ⟨ho, f2, r2⟩
    have hidle : Idle ((start code known).run (es ++ (List.replicate k1 .fire ++ List.replicate k2 .restart))) := by
      rw [hrun]
      exact r1
    refine ⟨hord, hidle, ?_⟩
    rw [hrun] at hidle ⊢
    refine (Good.idle (c := (ops es).foldl Config.apply code) ?_ hidle).1
    have h0 := good_run es _ _ (good_start code known hk) ho
    have h1 := good_run _ _ _ h0 f2
    have h2 := good_run _ _ _ h1 r2
    have hf : ∀ k : Nat, ops (List.replicate k (.fire : Ev α)) = [] := by
      intro k
      induction k with
      | zero => rfl
      | succ k ih => rw [List.replicate_succ]; exact ih
    have hr : ∀ k : Nat, ops (List.replicate k (.restart : Ev α)) = [] := by
      intro k
      induction k with
      | zero => rfl
      | succ k ih => rw [List.replicate_succ]; exact ih
    rw [hf, hr] at h2
    exact h2

/-- C141: dragging does not lose or double any action of the two inputs. -/
theorem C141_drag_keeps (code : Config α) (known : Nat → Bool) (n m : Nat) (l k : List (Item α)) (hnm : n ≠ m)
    (ha : Arranges (start code known) (.user (.drag n m l k))) :
    (code.apply (.drag n m l k) n false ++ code.apply (.drag n m l k) n true ++
      (code.apply (.drag n m l k) m false ++ code.apply (.drag n m l k) m true)).Perm
    (code n false ++ code n true ++ (code m false ++ code m true)) := by
  have hp := ha.2
  rw [if_neg hnm] at hp
  have e1 : ∀ j h, code j h = acts (render code j) h := fun j h => (acts_render code j h).symm
  rw [e1 n false, e1 n true, e1 m false, e1 m true]
  simp only [Config.apply, if_true, if_neg hnm.symm]
  refine ((acts_perm l).append (acts_perm k)).trans ?_
  refine List.Perm.trans ?_ ((acts_perm _).append (acts_perm _)).symm
  rw [← List.map_append, ← List.map_append]
  exact hp.map _

/-- C141: whatever the user does and whenever the timers and restarts come, the actions of inputs which no edit is about stay as they are. -/
theorem C141_untouched (code : Config α) (known : Nat → Bool) (es : List (Ev α)) (j : Nat) (hj : ∀ o ∈ ops es, j ∉ inputs o) :
    ((start code known).run es).code j = code j :=
  (quiet_run code j es _ ⟨rfl, rfl, by simp [start], by simp [start]⟩ hj).code

/-- One input with two actions. -/
def listsCode : Config Nat := fun n h => if n = 0 ∧ h = false then [1, 2] else []

/-- It is in the configuration. -/
def listsKnown : Nat → Bool := fun n => n == 0

/-- A new action for an input which is not in the configuration, an action which is moved to another place, and dragging. -/
example : Orderly (start listsCode listsKnown)
      [.user (.add 5 true 7), .fire, .restart, .user (.change 0 false 0 3), .fire, .fire, .restart, .restart,
       .user (.drag 5 0 [] [⟨(0, 0), false, 2⟩, ⟨(5, 0), true, 7⟩, ⟨(0, 1), true, 3⟩]), .restart] ∧
    Idle ((start listsCode listsKnown).run
      [.user (.add 5 true 7), .fire, .restart, .user (.change 0 false 0 3), .fire, .fire, .restart, .restart,
       .user (.drag 5 0 [] [⟨(0, 0), false, 2⟩, ⟨(5, 0), true, 7⟩, ⟨(0, 1), true, 3⟩]), .restart]) ∧
    ((start listsCode listsKnown).run
      [.user (.add 5 true 7), .fire, .restart, .user (.change 0 false 0 3), .fire, .fire, .restart, .restart,
       .user (.drag 5 0 [] [⟨(0, 0), false, 2⟩, ⟨(5, 0), true, 7⟩, ⟨(0, 1), true, 3⟩]), .restart]).code 0 true = [7, 3] := by
  refine ⟨⟨⟨rfl, rfl⟩, trivial, trivial, trivial, rfl, trivial, ⟨rfl, rfl⟩, trivial, trivial, trivial, trivial, trivial, rfl, trivial, rfl, trivial,
    ⟨rfl, rfl⟩, ⟨?_, ?_⟩, rfl, trivial, trivial⟩, ⟨rfl, rfl⟩, rfl⟩
  · intro h
    exact absurd (congrArg List.length h) (by decide)
  · rw [if_neg (by decide)]
    show List.Perm (α := Item Nat) [⟨(0, 0), false, 2⟩, ⟨(5, 0), true, 7⟩, ⟨(0, 1), true, 3⟩] [⟨(5, 0), true, 7⟩, ⟨(0, 0), false, 2⟩, ⟨(0, 1), true, 3⟩]
    exact List.Perm.swap _ _ _

/-- C141 fails without waiting: when two actions are added within 100 ms, the first one is lost. -/
theorem C141_fast_witness :
    ((start listsCode listsKnown).run [.user (.add 0 false 3), .user (.add 0 false 4), .fire, .fire, .restart, .restart]).code 0 false = [1, 2, 4] := rfl

/-- C141 fails if a restart takes place between the timers of one edit: the action which was moved to the other list is lost. -/
theorem C141_lost_witness :
    ((start listsCode listsKnown).run [.user (.change 0 false 0 3), .fire, .restart, .fire]).code 0 false = [2] ∧
    ((start listsCode listsKnown).run [.user (.change 0 false 0 3), .fire, .restart, .fire]).code 0 true = [] ∧
    Idle ((start listsCode listsKnown).run [.user (.change 0 false 0 3), .fire, .restart, .fire]) := ⟨rfl, rfl, rfl, rfl⟩

/-- C141 fails if something is dragged while an edit is left to be done: the new action is lost. -/
theorem C141_dragged_witness :
    ((start listsCode listsKnown).run [.user (.add 0 false 3), .user (.drag 0 0 [⟨(0, 1), false, 2⟩, ⟨(0, 0), false, 1⟩] []), .fire, .restart, .restart]).code 0
      false = [2, 1] := rfl

end PySwitch.Props
