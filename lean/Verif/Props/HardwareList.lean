import Verif.Spec.HardwareList
/-! C193: the editor shows exactly the inputs of the device. -/

namespace PySwitch.Props
open PySwitch PySwitch.HardwareList PySwitch.Spec.HardwareList PySwitch.Devices

namespace C193

/-- What is listed for one attribute. -/
theorem mem (m : List (String × Value)) (l : List Entry) (h : listed m = some l) (e : Entry) :
    e ∈ l ↔ ∃ mo, (e.name, Value.dict (some mo) e.dataName) ∈ m ∧ displayName mo e.dataName = some e.displayName ∧
      e.type = mo.cls ∧ e.port = portOf mo := by
  induction m generalizing l with
  | nil => simp only [listed, Option.some.injEq] at h; subst h; simp
  | cons a rest ih =>
    obtain ⟨name, v⟩ := a
    cases v with
    | other =>
      simp only [listed] at h
      rw [ih l h]; simp
    | dict mo n =>
      cases mo with
      | none => simp only [listed] at h; rw [ih l h]; simp
      | some mo =>
        simp only [listed] at h
        cases hd : displayName mo n with
        | none => simp [hd] at h
        | some d =>
          simp only [hd] at h
          obtain ⟨l', hl, rfl⟩ := Option.map_eq_some_iff.mp h
          simp only [List.mem_cons, ih l' hl]
          constructor
          · rintro (rfl | ⟨mo', h1, h2⟩)
            · exact ⟨mo, Or.inl rfl, hd, rfl, rfl⟩
            · exact ⟨mo', Or.inr h1, h2⟩
          · rintro ⟨mo', h1 | h1, h2, h3, h4⟩
            · left
              obtain ⟨en, et, ep, ed, ex⟩ := e
              simp only [Prod.mk.injEq, Value.dict.injEq, Option.some.injEq] at h1
              obtain ⟨rfl, rfl, rfl⟩ := h1
              simp only at h2 h3 h4
              rw [hd] at h2
              cases h2; cases h3; cases h4; rfl
            · right; exact ⟨mo', h1, h2, h3, h4⟩

theorem names (m : List (String × Value)) (l : List Entry) (h : listed m = some l) :
    l.map (·.name) = (m.filter fun a => describes a.2).map (·.1) := by
  induction m generalizing l with
  | nil => simp only [listed, Option.some.injEq] at h; subst h; rfl
  | cons a rest ih =>
    obtain ⟨name, v⟩ := a
    cases v with
    | other => simp only [listed] at h; rw [ih l h]; simp [describes]
    | dict mo n =>
      cases mo with
      | none => simp only [listed] at h; rw [ih l h]; simp [describes]
      | some mo =>
        simp only [listed] at h
        cases hd : displayName mo n with
        | none => simp [hd] at h
        | some d =>
          simp only [hd] at h
          obtain ⟨l', hl, rfl⟩ := Option.map_eq_some_iff.mp h
          simp [describes, ih l' hl]

theorem fails (m : List (String × Value)) :
    listed m = none ↔ ∃ name mo, (name, Value.dict (some mo) none) ∈ m ∧ mo.port = none ∧ mo.port1 = none := by
  induction m with
  | nil => simp [listed]
  | cons a rest ih =>
    obtain ⟨name, v⟩ := a
    cases v with
    | other => simp only [listed, ih]; simp
    | dict mo n =>
      cases mo with
      | none => simp only [listed, ih]; simp
      | some mo =>
        have hd : displayName mo n = none ↔ n = none ∧ mo.port = none ∧ mo.port1 = none := by
          unfold displayName portOf
          cases n <;> cases mo.port <;> cases mo.port1 <;> simp
        simp only [listed]
        cases hx : displayName mo n with
        | none =>
          simp only [true_iff]
          have := hd.mp hx
          exact ⟨name, mo, by simp [this.1], this.2⟩
        | some d =>
          simp only [Option.map_eq_none_iff, ih]
          constructor
          · rintro ⟨a, b, h1, h2⟩; exact ⟨a, b, List.mem_cons_of_mem _ h1, h2⟩
          · rintro ⟨a, b, h1, h2⟩
            rcases List.mem_cons.mp h1 with h1 | h1
            · simp only [Prod.mk.injEq, Value.dict.injEq, Option.some.injEq] at h1
              obtain ⟨_, rfl, rfl⟩ := h1
              rw [hd.mpr ⟨rfl, h2⟩] at hx; cases hx
            · exact ⟨a, b, h1, h2⟩

end C193

/-- C193. The editor lists exactly those attributes of the module of the device which describe an input, in their order, each one once, with the class and the port of its hardware and its name. -/
theorem C193_listed (m : List (String × Value)) (l : List Entry) (h : listed m = some l) :
    l.map (·.name) = (m.filter fun a => describes a.2).map (·.1) ∧
    ∀ e : Entry, e ∈ l ↔ ∃ mo, (e.name, Value.dict (some mo) e.dataName) ∈ m ∧ displayName mo e.dataName = some e.displayName ∧
      e.type = mo.cls ∧ e.port = portOf mo :=
  ⟨C193.names m l h, C193.mem m l h⟩

/-- C193. There is a list unless an input has neither a name nor a port. -/
theorem C193_fails (m : List (String × Value)) :
    listed m = none ↔ ∃ name mo, (name, Value.dict (some mo) none) ∈ m ∧ mo.port = none ∧ mo.port1 = none :=
  C193.fails m

/-- C193. If the names of the inputs differ, asking for the name of an input gives this input. -/
theorem C193_lookup (l : List Entry) (h : (l.map (·.dataName)).Nodup) (e : Entry) (he : e ∈ l) :
    assignmentFor l e.dataName = some e := by
  unfold assignmentFor
  induction l with
  | nil => cases he
  | cons a l ih =>
    simp only [List.map_cons, List.nodup_cons, List.mem_map, not_exists, not_and] at h
    rcases List.mem_cons.mp he with rfl | he
    · simp
    · have hne : ¬ (a.dataName == e.dataName) = true := by
        intro hq
        exact h.1 e he (beq_iff_eq.mp hq).symm
      rw [List.filter_cons_of_neg (p := fun x : Entry => x.dataName == e.dataName) hne]
      exact ih h.2 he

namespace C193

theorem zip_inputs {names : List String} {inputs : List Input} {m : List (String × Value)} (hm : ModuleOf names inputs m)
    (a : String × Value) : (a ∈ m ∧ describes a.2 = true) ↔ a ∈ names.zip (inputs.map dictOf) := by
  rw [← hm.mem_iff]; simp

theorem dict_some (i : Input) : ∃ mo, dictOf i = .dict (some mo) (some i.name) ∧ displayName mo (some i.name) = some (titleOf i) ∧
    mo.cls = classOf i.kind ∧ portOf mo = i.pins.head? := by
  obtain ⟨name, kind, pins, px, st⟩ := i
  cases kind <;> refine ⟨_, rfl, ?_, rfl, ?_⟩ <;> simp [displayName, titleOf, portOf] <;> cases pins.head? <;> rfl

/-- The entries of the tables, in their order. -/
def expected (names : List String) (inputs : List Input) : List Entry :=
  (names.zip inputs).map fun x => ⟨x.1, classOf x.2.kind, x.2.pins.head?, some x.2.name, titleOf x.2⟩

theorem exists_list {names : List String} {inputs : List Input} {m : List (String × Value)} (hm : ModuleOf names inputs m) :
    ∃ l, listed m = some l := by
  cases h : listed m with
  | some l => exact ⟨l, rfl⟩
  | none =>
    obtain ⟨n, mo, hin, _⟩ := (fails m).mp h
    have h1 := (zip_inputs hm _).mp ⟨hin, rfl⟩
    have h2 := (List.of_mem_zip h1).2
    obtain ⟨i, _, hi⟩ := List.mem_map.mp h2
    obtain ⟨mo', he, _⟩ := dict_some i
    rw [he] at hi; cases hi

/-- The list for a list of attributes without others. -/
theorem listed_expected (names : List String) (inputs : List Input) :
    listed (names.zip (inputs.map dictOf)) = some (expected names inputs) := by
  induction names generalizing inputs with
  | nil => rfl
  | cons n names ih =>
    cases inputs with
    | nil => rfl
    | cons i inputs =>
      obtain ⟨mo, he, hd, hc, hp⟩ := dict_some i
      simp only [List.map_cons, List.zip_cons_cons, he, listed, hd, ih inputs, Option.map_some, expected, hc, hp]

theorem listed_filter (m : List (String × Value)) : listed (m.filter fun a => describes a.2) = listed m := by
  induction m with
  | nil => rfl
  | cons a rest ih =>
    obtain ⟨name, v⟩ := a
    cases v with
    | other => simpa [listed, describes] using ih
    | dict mo n =>
      cases mo with
      | none => simpa [listed, describes] using ih
      | some mo => simp only [describes, List.filter_cons_of_pos, listed] at ih ⊢; rw [ih]

theorem listed_perm {a b : List (String × Value)} (h : a.Perm b) : ∀ l, listed a = some l → ∃ l', listed b = some l' ∧ l.Perm l' := by
  induction h with
  | nil => intro l hl; exact ⟨l, hl, .refl _⟩
  | cons x _ ih =>
    intro l hl
    obtain ⟨name, v⟩ := x
    cases v with
    | other => simp only [listed] at hl ⊢; exact ih l hl
    | dict mo n =>
      cases mo with
      | none => simp only [listed] at hl ⊢; exact ih l hl
      | some mo =>
        simp only [listed] at hl ⊢
        cases hd : displayName mo n with
        | none => simp [hd] at hl
        | some d =>
          simp only [hd] at hl ⊢
          obtain ⟨l1, h1, rfl⟩ := Option.map_eq_some_iff.mp hl
          obtain ⟨l2, h2, hp⟩ := ih l1 h1
          exact ⟨_, by rw [h2]; rfl, hp.cons _⟩
  | swap x y t =>
    intro l hl
    obtain ⟨nx, vx⟩ := x
    obtain ⟨ny, vy⟩ := y
    have key : ∀ (n : String) (v : Value) (r : List (String × Value)) (l : List Entry), listed ((n, v) :: r) = some l →
        ∃ p l', listed r = some l' ∧ l = p ++ l' ∧ ∀ r' l'', listed r' = some l'' → listed ((n, v) :: r') = some (p ++ l'') := by
      intro n v r l h
      cases v with
      | other => exact ⟨[], l, h, rfl, fun r' l'' h' => h'⟩
      | dict mo nn =>
        cases mo with
        | none => exact ⟨[], l, h, rfl, fun r' l'' h' => h'⟩
        | some mo =>
          simp only [listed] at h ⊢
          cases hd : displayName mo nn with
          | none => simp [hd] at h
          | some d =>
            simp only [hd] at h ⊢
            obtain ⟨l1, h1, rfl⟩ := Option.map_eq_some_iff.mp h
            exact ⟨[_], l1, h1, rfl, fun r' l'' h' => by rw [h']; rfl⟩
    obtain ⟨p, l1, h1, rfl, hy⟩ := key ny vy _ l hl
    obtain ⟨q, l2, h2, rfl, hx⟩ := key nx vx _ l1 h1
    refine ⟨q ++ (p ++ l2), hx _ _ (hy _ _ h2), ?_⟩
    rw [← List.append_assoc, ← List.append_assoc]
    exact List.perm_append_comm.append_right _
  | trans _ _ ih1 ih2 =>
    intro l hl
    obtain ⟨l1, h1, p1⟩ := ih1 l hl
    obtain ⟨l2, h2, p2⟩ := ih2 l1 h1
    exact ⟨l2, h2, p1.trans p2⟩

theorem shipped_facts (names : List String) (inputs : List Input) (hs : Shipped names inputs) :
    names.length = inputs.length ∧ ((expected names inputs).map (·.dataName)).Nodup ∧
      ((expected names inputs).map (·.displayName)).Nodup ∧ ((expected names inputs).map (·.name)).Nodup := by
  cases hs <;> decide +kernel

end C193

/-- C193. For each of the shipped devices, all the inputs are listed, each one once, with its class, its (first) port and its title. All titles differ, and asking for the name of an input gives the constant of this input. -/
theorem C193_shipped (names : List String) (inputs : List Input) (hs : Shipped names inputs) (m : List (String × Value))
    (hm : ModuleOf names inputs m) :
    ∃ l, listed m = some l ∧ l.length = inputs.length ∧ (l.map (·.displayName)).Nodup ∧
      ∀ (k : Nat) (n : String) (i : Input), names[k]? = some n → inputs[k]? = some i →
        ∃ e ∈ l, e = ⟨n, classOf i.kind, i.pins.head?, some i.name, titleOf i⟩ ∧ assignmentFor l (some i.name) = some e := by
  obtain ⟨l, hl⟩ := C193.exists_list hm
  have hf := C193.listed_filter m
  rw [hl] at hf
  obtain ⟨l', h1, hp⟩ := C193.listed_perm hm l hf
  rw [C193.listed_expected] at h1
  cases h1
  obtain ⟨f1, f2, f3, _⟩ := C193.shipped_facts names inputs hs
  refine ⟨l, hl, ?_, ?_, ?_⟩
  · rw [hp.length_eq]; simp [C193.expected, f1]
  · exact (hp.map _).nodup_iff.mpr f3
  · intro k n i hn hi
    have hmem : (⟨n, classOf i.kind, i.pins.head?, some i.name, titleOf i⟩ : Entry) ∈ l := by
      rw [hp.mem_iff]
      refine List.mem_map.mpr ⟨(n, i), ?_, rfl⟩
      exact List.mem_of_getElem? (i := k) (List.getElem?_zip_eq_some (z := (n, i)) |>.mpr ⟨hn, hi⟩)
    exact ⟨_, hmem, rfl, C193_lookup l ((hp.map _).nodup_iff.mpr f2) _ hmem⟩

/-- The smallest device, with the import of the board and the dictionary of the builtins. -/
example : ∃ m, ModuleOf constants4 midicaptainNano4 m ∧ ("_board", Value.other) ∈ m ∧ ("__builtins__", Value.dict none none) ∈ m ∧
    (listed m).map (·.map (·.displayName)) = some ["Switch 1", "Switch 2", "Switch A", "Switch B"] := by
  refine ⟨constants4.zip (midicaptainNano4.map dictOf) ++ [("__builtins__", .dict none none), ("_board", Value.other)], ?_, by simp, by simp, by decide +kernel⟩
  have : (constants4.zip (midicaptainNano4.map dictOf) ++ [("__builtins__", .dict none none), ("_board", Value.other)]).filter (fun a => describes a.2) =
      constants4.zip (midicaptainNano4.map dictOf) := by decide +kernel
  unfold ModuleOf
  rw [this]

end PySwitch.Props
