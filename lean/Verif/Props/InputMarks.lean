import Verif.Spec.InputMarks
/-
C213: the messages beside the inputs of the display editor.
-/
namespace PySwitch.Props
open PySwitch.InputMarks PySwitch.InputMarks.Spec

namespace C213

theorem message_name (i : Input) (t : String) (k : Kind) : (i.message t k).name = i.name := by
  cases k with
  | error => rfl
  | info => rfl
  | warning => simp only [Input.message]; split <;> rfl

theorem message_messages (i : Input) (t : String) (k : Kind) : (i.message t k).messages = i.messages ++ [(t, k)] := by
  cases k with
  | error => rfl
  | info => rfl
  | warning => simp only [Input.message]; split <;> rfl

/-- The classes belong to the messages. -/
def Right (i : Input) : Prop :=
  (i.error = true ↔ ∃ t, (t, Kind.error) ∈ i.messages) ∧
  (i.warning = true ↔ (∃ t, (t, Kind.warning) ∈ i.messages) ∧ ¬ ∃ t, (t, Kind.error) ∈ i.messages)

theorem right_clear (i : Input) : Right i.clear := by
  simp [Right, Input.clear]

theorem right_message {i : Input} (h : Right i) (t : String) (k : Kind) : Right (i.message t k) := by
  obtain ⟨h1, h2⟩ := h
  unfold Right
  rw [message_messages]
  have mem : ∀ k', (∃ t', (t', k') ∈ i.messages ++ [(t, k)]) ↔ (∃ t', (t', k') ∈ i.messages) ∨ k' = k := by
    intro k'
    constructor
    · rintro ⟨t', h⟩
      rcases List.mem_append.1 h with h | h
      · exact .inl ⟨t', h⟩
      · simp at h; exact .inr h.2
    · rintro (⟨t', h⟩ | rfl)
      · exact ⟨t', List.mem_append_left _ h⟩
      · exact ⟨t, by simp⟩
  rw [mem, mem]
  cases k with
  | error => simp [Input.message]
  | info => simp only [Input.message]; rw [h1, h2]; simp
  | warning =>
    simp only [Input.message]
    by_cases he : i.error = true
    · have := h1.1 he
      simp only [he, Bool.not_true, Bool.false_eq_true, if_false]
      rw [h2]
      simp [this]
    · have he' : i.error = false := by simpa using he
      have no : ¬ ∃ t, (t, Kind.error) ∈ i.messages := fun x => he (h1.2 x)
      simp only [he', Bool.not_false, if_true]
      simp [no]

theorem logTo_names {name t : String} {k : Kind} {is is' : List Input} (h : logTo name t k is = some is') : is'.map Input.name = is.map Input.name := by
  induction is generalizing is' with
  | nil => cases h
  | cons i is ih =>
    rw [logTo] at h
    split at h
    · cases h; simp [message_name]
    · cases hr : logTo name t k is with
      | none => rw [hr] at h; cases h
      | some r => rw [hr] at h; cases h; simp [ih hr]

theorem logTo_some {name : String} (t : String) (k : Kind) {is : List Input} (h : name ∈ is.map Input.name) : ∃ is', logTo name t k is = some is' := by
  induction is with
  | nil => cases h
  | cons i is ih =>
    rw [logTo]
    by_cases e : i.name = name
    · exact ⟨_, if_pos e⟩
    · rw [if_neg e]
      have : name ∈ is.map Input.name := by
        rcases List.mem_cons.1 h with h | h
        · exact absurd h.symm e
        · exact h
      obtain ⟨r, hr⟩ := ih this
      exact ⟨_, by rw [hr]; rfl⟩

theorem logTo_none {name : String} (t : String) (k : Kind) {is : List Input} (h : name ∉ is.map Input.name) : logTo name t k is = none := by
  induction is with
  | nil => rfl
  | cons i is ih =>
    simp at h
    rw [logTo, if_neg (fun e => h.1 e.symm), ih (by simpa using h.2)]
    rfl

theorem logTo_eq {name t : String} {k : Kind} {is is' : List Input} (h : logTo name t k is = some is') (nodup : (is.map Input.name).Nodup) :
    is' = is.map fun i => if i.name = name then i.message t k else i := by
  induction is generalizing is' with
  | nil => cases h
  | cons i is ih =>
    rw [List.map_cons, List.nodup_cons] at nodup
    rw [logTo] at h
    split at h
    · rename_i e
      cases h
      rw [List.map_cons, if_pos e]
      congr 1
      have : ∀ x ∈ is, ¬ x.name = name := fun x hx e' => nodup.1 (by rw [e, ← e']; exact List.mem_map_of_mem hx)
      rw [List.map_congr_left (g := id) (fun x hx => by simp [this x hx]), List.map_id]
    · rename_i e
      cases hr : logTo name t k is with
      | none => rw [hr] at h; cases h
      | some r =>
        rw [hr] at h
        cases h
        rw [List.map_cons, if_neg e, ih hr nodup.2]

/-- The messages of an input one after the other. -/
def receive (i : Input) (ms : List (String × Kind)) : Input := ms.foldl (fun i m => i.message m.1 m.2) i

theorem receive_messages (ms : List (String × Kind)) (i : Input) : (receive i ms).messages = i.messages ++ ms ∧ (receive i ms).name = i.name := by
  induction ms generalizing i with
  | nil => simp [receive]
  | cons m ms ih =>
    obtain ⟨h1, h2⟩ := ih (i.message m.1 m.2)
    exact ⟨by show (receive _ ms).messages = _; rw [h1, message_messages, List.append_assoc]; rfl, by show (receive _ ms).name = _; rw [h2, message_name]⟩

theorem receive_right (ms : List (String × Kind)) {i : Input} (h : Right i) : Right (receive i ms) := by
  induction ms generalizing i with
  | nil => exact h
  | cons m ms ih => exact ih (right_message h _ _)

theorem logAll_eq (ms : List Message) (is : List Input) (nodup : (is.map Input.name).Nodup) (known : Known is ms) :
    logAll is ms = (is.map fun i => receive i (messagesFor i.name ms), true) := by
  induction ms generalizing is with
  | nil => simp [logAll, messagesFor, receive]
  | cons m ms ih =>
    have known' : Known is ms := fun x hx => known x (by simp [hx])
    rw [logAll]
    split
    · rename_i hm
      rw [ih is nodup known']
      congr 1
      apply List.map_congr_left
      intro i _
      simp [messagesFor, hm]
    · rename_i name hm
      obtain ⟨is', h⟩ := logTo_some m.text m.kind (known m (by simp) name hm)
      rw [h]
      have names := logTo_names h
      have e := logTo_eq h nodup
      simp only
      rw [ih is' (by rw [names]; exact nodup) (by intro x hx n hn; rw [names]; exact known' x hx n hn), e, List.map_map]
      congr 1
      apply List.map_congr_left
      intro i _
      simp only [Function.comp]
      by_cases hi : i.name = name
      · rw [if_pos hi, message_name]
        simp only [messagesFor, List.filter_cons, hm, hi, beq_self_eq_true, if_true, List.map_cons]
        rfl
      · rw [if_neg hi]
        have : (some name == some i.name) = false := by simpa using fun e => hi e.symm
        simp only [messagesFor, List.filter_cons, hm, this, Bool.false_eq_true, if_false]

end C213

/-- C213. If all messages are for inputs which exist, each input shows exactly its messages, in order, whatever it showed before. -/
theorem C213_messages (inputs : List Input) (messages : List Message) (different : Different inputs) (known : Known inputs messages) :
    (check inputs messages).2 = true ∧
    (check inputs messages).1.map (fun i => (i.name, i.messages)) = inputs.map fun i => (i.name, messagesFor i.name messages) := by
  have names : (inputs.map Input.clear).map Input.name = inputs.map Input.name := by simp [Input.clear]
  have h := C213.logAll_eq messages (inputs.map Input.clear) (by rw [names]; exact different) (by intro m hm n hn; rw [names]; exact known m hm n hn)
  unfold check
  rw [h]
  refine ⟨rfl, ?_⟩
  rw [List.map_map, List.map_map]
  apply List.map_congr_left
  intro i _
  obtain ⟨h1, h2⟩ := C213.receive_messages (messagesFor i.name messages) i.clear
  show ((C213.receive i.clear (messagesFor i.clear.name messages)).name, (C213.receive i.clear (messagesFor i.clear.name messages)).messages) = _
  have e : i.clear.name = i.name := rfl
  rw [e, h1, h2]
  rfl

namespace C213

theorem right_logTo {name t : String} {k : Kind} {is is' : List Input} (h : logTo name t k is = some is') (r : ∀ i ∈ is, Right i) : ∀ i ∈ is', Right i := by
  induction is generalizing is' with
  | nil => cases h
  | cons i is ih =>
    rw [logTo] at h
    split at h
    · cases h
      intro x hx
      rcases List.mem_cons.1 hx with rfl | hx
      · exact right_message (r i (by simp)) t k
      · exact r x (by simp [hx])
    · cases hr : logTo name t k is with
      | none => rw [hr] at h; cases h
      | some q =>
        rw [hr] at h
        cases h
        intro x hx
        rcases List.mem_cons.1 hx with rfl | hx
        · exact r x (by simp)
        · exact ih hr (fun y hy => r y (by simp [hy])) x hx

theorem right_logAll (ms : List Message) (is : List Input) (r : ∀ i ∈ is, Right i) : ∀ i ∈ (logAll is ms).1, Right i := by
  induction ms generalizing is with
  | nil => exact r
  | cons m ms ih =>
    rw [logAll]
    split
    · exact ih is r
    · split
      · exact r
      · rename_i h; exact ih _ (right_logTo h r)

end C213

/-- C213. Always, an input is marked as wrong exactly if one of its messages is an error, and as doubtful exactly if one is a warning and none is an error. -/
theorem C213_marks (inputs : List Input) (messages : List Message) : ∀ i ∈ (check inputs messages).1,
    (i.error = true ↔ ∃ t, (t, Kind.error) ∈ i.messages) ∧
    (i.warning = true ↔ (∃ t, (t, Kind.warning) ∈ i.messages) ∧ ¬ ∃ t, (t, Kind.error) ∈ i.messages) := by
  intro i hi
  refine C213.right_logAll messages _ ?_ i hi
  intro x hx
  obtain ⟨y, -, rfl⟩ := List.mem_map.1 hx
  exact C213.right_clear y

/-- C213. What was shown before does not count. -/
theorem C213_again (inputs : List Input) (messages other : List Message) (different : Different inputs) (knownOther : Known inputs other) :
    check (check inputs other).1 messages = check inputs messages := by
  have names : (inputs.map Input.clear).map Input.name = inputs.map Input.name := by simp [Input.clear]
  have h := C213.logAll_eq other (inputs.map Input.clear) (by rw [names]; exact different) (by intro m hm n hn; rw [names]; exact knownOther m hm n hn)
  have e : (check inputs other).1.map Input.clear = inputs.map Input.clear := by
    unfold check
    rw [h, List.map_map, List.map_map]
    apply List.map_congr_left
    intro i _
    obtain ⟨-, h2⟩ := C213.receive_messages (messagesFor i.name other) i.clear
    show (C213.receive i.clear (messagesFor i.clear.name other)).clear = i.clear
    have e : i.clear.name = i.name := rfl
    rw [e]
    unfold Input.clear at h2 ⊢
    simp only [h2]
  unfold check at e ⊢
  rw [e]

/-- C213. The messages without input are left out. -/
theorem C213_noInput (inputs : List Input) (messages : List Message) (none : ∀ m ∈ messages, m.input = none) : check inputs messages = (inputs.map Input.clear, true) := by
  unfold check
  generalize inputs.map Input.clear = is
  induction messages with
  | nil => rfl
  | cons m ms ih =>
    rw [logAll, none m (by simp)]
    exact ih fun x hx => none x (by simp [hx])

/-- C213. A message for an input which does not exist is an exception, and nothing is shown of it and the ones after it. -/
theorem C213_unknown (inputs : List Input) (before after : List Message) (m : Message) (name : String) (known : Known inputs before)
    (for_ : m.input = some name) (unknown : name ∉ inputs.map Input.name) :
    check inputs (before ++ m :: after) = ((check inputs before).1, false) := by
  unfold check
  have key : ∀ (before : List Message) (is : List Input), is.map Input.name = inputs.map Input.name → Known inputs before →
      logAll is (before ++ m :: after) = ((logAll is before).1, false) := by
    intro before
    induction before with
    | nil =>
      intro is names _
      simp only [List.nil_append, logAll, for_, C213.logTo_none m.text m.kind (show name ∉ is.map Input.name by rw [names]; exact unknown)]
    | cons b before ih =>
      intro is names known
      have known' : Known inputs before := fun x hx => known x (by simp [hx])
      rw [List.cons_append, logAll, logAll]
      split
      · exact ih is names known'
      · rename_i n hn
        obtain ⟨is', h⟩ := C213.logTo_some (is := is) b.text b.kind (by rw [names]; exact known b (by simp) n hn)
        rw [h]
        exact ih is' ((C213.logTo_names h).trans names) known'
  exact key before _ (by simp [Input.clear]) known

/-- Non-vacuity: an input with an old error gets a warning, another one an error and a warning. -/
example : Different [⟨"x", true, false, [("old", .error)]⟩, { name := "assign" }] ∧
    Known [⟨"x", true, false, [("old", .error)]⟩, { name := "assign" }] [⟨"a", .warning, some "assign"⟩, ⟨"b", .error, some "assign"⟩, ⟨"c", .warning, some "x"⟩, ⟨"d", .info, none⟩] ∧
    check [⟨"x", true, false, [("old", .error)]⟩, { name := "assign" }] [⟨"a", .warning, some "assign"⟩, ⟨"b", .error, some "assign"⟩, ⟨"c", .warning, some "x"⟩, ⟨"d", .info, none⟩] =
      ([⟨"x", false, true, [("c", .warning)]⟩, ⟨"assign", true, false, [("a", .warning), ("b", .error)]⟩], true) := by
  refine ⟨by unfold Different; decide, ?_, by decide⟩
  intro m hm name hn
  simp only [List.mem_cons, List.not_mem_nil, or_false] at hm
  rcases hm with rfl | rfl | rfl | rfl <;> cases hn <;> decide

example : "y" ∉ [({ name := "x" } : Input)].map Input.name ∧ ∀ m ∈ [(⟨"d", .info, none⟩ : Message)], m.input = none := ⟨by decide, by simp⟩

end PySwitch.Props
