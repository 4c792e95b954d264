import Verif.Spec.Settings

/-! Lemmas on the settings dialog and the file generated from it. -/

namespace PySwitch.Settings

open PySwitch.Spec.Settings

theorem lookup_assign (name n : String) (v : Val) (d : Data) :
    (assign name v d).lookup n = if n = name then some v else d.lookup n := by
  induction d with
  | nil =>
    simp only [assign, List.lookup_cons, List.lookup_nil]
    by_cases h : n = name
    · simp [h]
    · have : (n == name) = false := by simpa using h
      simp [h, this]
  | cons e r ih =>
    obtain ⟨m, w⟩ := e
    simp only [assign]
    by_cases hm : m = name
    · rw [if_pos hm]
      simp only [List.lookup_cons]
      subst hm
      by_cases h : n = m
      · simp [h]
      · have : (n == m) = false := by simpa using h
        simp [h, this]
    · rw [if_neg hm]
      simp only [List.lookup_cons, ih]
      by_cases h : n = m
      · subst h; simp [hm]
      · have : (n == m) = false := by simpa using h
        simp [this]

theorem readOption_eq (c : List (String × PyVal)) (n : String) (d : PyVal) : readOption c n d = (c.lookup n).getD d := by
  cases c with
  | nil => rfl
  | cons e r =>
    simp only [readOption, PySwitch.getOption]
    cases (e :: r).lookup n <;> rfl

/-- The kind of a value fits the field. -/
def Fits (n : String) : Val → Prop
  | .bool _ => (n, true) ∈ fields
  | .num _ => (n, false) ∈ fields
  | .null => (n, false) ∈ fields

theorem lookup_run (history : List Change) (hp : Possible history) (n : String) :
    match (run history).lookup n with
    | some v => pyValue v = chosen history n ∧ Fits n v
    | none => chosen history n = initially n := by
  revert hp
  obtain ⟨k, rfl⟩ : ∃ k : List Change, history = k.reverse := ⟨history.reverse, by simp⟩
  induction k with
  | nil => intro _; simp [run, chosen, chosenLatest]
  | cons c k ih =>
    rw [List.reverse_cons]
    generalize k.reverse = h at ih
    intro hp
    have hp' : Possible h := fun x hx => hp x (by simp [hx])
    have hc := hp c (by simp)
    have ih := ih hp'
    have e : run (h ++ [c]) = change (run h) c := by simp [run]
    have e' : chosen (h ++ [c]) n = chosenLatest (c :: h.reverse) n := by simp [chosen]
    rw [e, e']
    cases c with
    | reset => simp [change, chosenLatest]
    | choose m f =>
      simp only [change, setAttribute, lookup_assign, chosenLatest]
      by_cases hn : n = m
      · subst hn
        simp only [if_true]
        cases f with
        | check b => exact ⟨rfl, hc⟩
        | number x => cases x <;> exact ⟨rfl, hc⟩
      · rw [if_neg hn, if_neg (Ne.symm hn)]
        exact ih

/-- Keys are fields. -/
theorem keys_run (history : List Change) (hp : Possible history) (n : String) (v : Val) (h : (run history).lookup n = some v) :
    n ∈ fields.map (·.1) := by
  have := lookup_run history hp n
  rw [h] at this
  have hf := this.2
  cases v <;> exact List.mem_map.2 ⟨_, hf, rfl⟩

theorem defaults_initially : ∀ f ∈ fields,
    ∃ v, defaults.lookup f.1 = some v ∧ pyValue v = initially f.1 ∧ (match v with | .bool _ => f.2 = true | .num _ => f.2 = false | .null => False) := by
  intro f hf
  simp only [fields, List.mem_cons, List.not_mem_nil, or_false] at hf
  rcases hf with h | h | h | h | h | h | h | h | h | h | h | h | h | h | h | h <;> subst h <;>
    refine ⟨_, rfl, ?_, rfl⟩ <;> decide +kernel

/-- The token of a line. -/
def Line.tokenName : Line → Option String
  | .token n => some n
  | _ => none

/-- The option of a line. -/
def Line.name : Line → String
  | .token n => n
  | .active n _ => n
  | .commented n _ => n

/-- Some tokens are replaced. -/
def sub (p : String → Bool) (f : String → Line) : Line → Line
  | .token n => if p n then f n else .token n
  | l => l

theorem replaceFirst_eq (k : String) (f : String → Line) (t : List Line) (hd : (t.filterMap Line.tokenName).Nodup) :
    replaceFirst k (f k) t = t.map (sub (fun n => n == k) f) := by
  induction t with
  | nil => rfl
  | cons l r ih =>
    simp only [replaceFirst, List.map_cons]
    by_cases h : l = .token k
    · subst h
      simp only [List.filterMap_cons, Line.tokenName, List.nodup_cons] at hd
      have e : r.map (sub (fun n => n == k) f) = r := by
        conv => rhs; rw [← List.map_id r]
        apply List.map_congr_left
        intro x hx
        cases x with
        | token n =>
          have : n ≠ k := by
            intro e; subst e
            exact hd.1 (List.mem_filterMap.2 ⟨_, hx, rfl⟩)
          simp [sub, this]
        | _ => rfl
      simp [sub, e]
    · rw [if_neg h]
      have hd' : (r.filterMap Line.tokenName).Nodup := by
        rw [List.filterMap_cons] at hd
        cases hl : l.tokenName with
        | none => simpa [hl] using hd
        | some x => rw [hl] at hd; exact (List.nodup_cons.1 hd).2
      rw [ih hd']
      congr 1
      cases l with
      | token n =>
        have : n ≠ k := fun e => h (by rw [e])
        simp [sub, this]
      | _ => rfl

theorem sub_tokens (p : String → Bool) (f : String → Line) (hf : ∀ n, (f n).tokenName = none) (t : List Line)
    (hd : (t.filterMap Line.tokenName).Nodup) : ((t.map (sub p f)).filterMap Line.tokenName).Nodup := by
  have e : (t.map (sub p f)).filterMap Line.tokenName = (t.filterMap Line.tokenName).filter (fun n => !p n) := by
    clear hd
    induction t with
    | nil => rfl
    | cons l r ih =>
      cases l with
      | token n =>
        by_cases h : p n
        · have e1 : sub p f (.token n) = f n := by simp [sub, h]
          have e2 : (Line.token n).tokenName = some n := rfl
          rw [List.map_cons, e1, List.filterMap_cons, hf, List.filterMap_cons, e2]
          simp only [List.filter_cons, h, ih]
          simp
        · have e1 : sub p f (.token n) = .token n := by simp [sub, h]
          have e2 : (Line.token n).tokenName = some n := rfl
          rw [List.map_cons, e1, List.filterMap_cons, e2, List.filterMap_cons, e2]
          simp only [List.filter_cons, h, ih]
          simp
      | _ => simp only [List.map_cons, sub, List.filterMap_cons, ih, Line.tokenName]
  rw [e]
  exact hd.sublist List.filter_sublist

theorem sub_sub (p q : String → Bool) (f : String → Line) (hf : ∀ n, (f n).tokenName = none) (l : Line) :
    sub q f (sub p f l) = sub (fun n => p n || q n) f l := by
  have stay : ∀ x : Line, x.tokenName = none → sub q f x = x := by
    intro x hx
    cases x <;> first | rfl | simp [Line.tokenName] at hx
  cases l with
  | token n =>
    by_cases h : p n
    · have e1 : sub p f (.token n) = f n := by simp [sub, h]
      rw [e1, stay _ (hf n)]
      simp [sub, h]
    · have e1 : sub p f (.token n) = .token n := by simp [sub, h]
      rw [e1]
      simp [sub, h]
  | _ => rfl

theorem fold_eq (ks : List String) (f : String → Line) (hf : ∀ n, (f n).tokenName = none) :
    ∀ t : List Line, (t.filterMap Line.tokenName).Nodup →
      ks.foldl (fun t k => replaceFirst k (f k) t) t = t.map (sub (fun n => ks.contains n) f) := by
  induction ks with
  | nil =>
    intro t _
    conv => lhs; rw [List.foldl_nil, ← List.map_id t]
    apply List.map_congr_left
    intro x _
    cases x <;> simp [sub]
  | cons k ks ih =>
    intro t hd
    rw [List.foldl_cons, replaceFirst_eq k f t hd, ih _ (sub_tokens _ f hf t hd), List.map_map]
    apply List.map_congr_left
    intro x _
    simp only [Function.comp]
    rw [sub_sub _ _ f hf]
    simp only [List.contains_cons]

theorem entryFor_token (d : Data) (n : String) : (entryFor d n).tokenName = none := by
  simp only [entryFor]
  split <;> rfl

theorem fold_keys (d : Data) (f : String → Line) : ∀ t,
    d.foldl (fun t e => replaceFirst e.1 (f e.1) t) t = (d.map (·.1)).foldl (fun t k => replaceFirst k (f k) t) t := by
  intro t
  rw [List.foldl_map]

theorem fold_missing (es : Data) (p : String → Bool) (f : String → Line) : ∀ t,
    es.foldl (fun t e => if p e.1 then t else replaceFirst e.1 (f e.1) t) t =
      ((es.map (·.1)).filter (fun n => !p n)).foldl (fun t k => replaceFirst k (f k) t) t := by
  induction es with
  | nil => intro t; rfl
  | cons e es ih =>
    intro t
    simp only [List.foldl_cons, List.map_cons, List.filter_cons]
    by_cases h : p e.1
    · simp [h, ih]
    · simp [h, ih]

theorem any_key (d : Data) (n : String) : (d.any (·.1 = n)) = (d.map (·.1)).contains n := by
  rw [Bool.eq_iff_iff]
  simp [List.any_eq_true]

/-- The file: each token is replaced by its entry. -/
theorem render_eq (d : Data) : render d = template.map (sub (fun _ => true) (entryFor d)) := by
  unfold render
  have hd : (template.filterMap Line.tokenName).Nodup := by decide
  have hf := entryFor_token d
  simp only []
  have h2 : ∀ t, defaults.foldl (fun t e => if d.any (·.1 = e.1) then t else replaceFirst e.1 (entryFor d e.1) t) t =
      ((defaults.map (·.1)).filter (fun n => !(d.map (·.1)).contains n)).foldl (fun t k => replaceFirst k (entryFor d k) t) t := by
    intro t
    rw [← fold_missing]
    simp only [any_key]
  rw [h2, fold_keys, fold_eq _ _ hf _ hd, fold_eq _ _ hf _ (sub_tokens _ _ hf _ hd), List.map_map]
  apply List.map_congr_left
  intro l hl
  simp only [Function.comp]
  rw [sub_sub _ _ _ hf]
  cases l with
  | token n =>
    have hn : n ∈ defaults.map (·.1) := by
      have : ∀ n ∈ template.filterMap Line.tokenName, n ∈ defaults.map (·.1) := by decide
      exact this _ (List.mem_filterMap.2 ⟨_, hl, rfl⟩)
    simp only [sub]
    have : ((d.map (·.1)).contains n || ((defaults.map (·.1)).filter (fun n => !(d.map (·.1)).contains n)).contains n) = true := by
      by_cases h : (d.map (·.1)).contains n
      · simp only [h, Bool.true_or]
      · have h' : n ∈ (defaults.map (·.1)).filter (fun n => !(d.map (·.1)).contains n) := by
          rw [List.mem_filter]
          exact ⟨hn, by simp only [h]; rfl⟩
        rw [List.contains_iff_mem.2 h', Bool.or_true]
    rw [if_pos this, if_pos trivial]
  | _ => rfl

/-- What a line contributes to an option. -/
def Line.gives (n : String) : Line → Option PyVal
  | .active m v => if m = n then pyValue v else none
  | _ => none

theorem load_lookup (ls : List Line) (c : List (String × PyVal)) (h : loadConfig ls = some c) (n : String) :
    c.lookup n = ls.findSome? (Line.gives n) := by
  induction ls generalizing c with
  | nil => cases h; rfl
  | cons l r ih =>
    cases l with
    | token m => simp [loadConfig] at h
    | commented m v => exact ih c h
    | active m v =>
      simp only [loadConfig] at h
      cases hv : pyValue v with
      | none => simp [hv] at h
      | some p =>
        cases hr : loadConfig r with
        | none => simp [hv, hr] at h
        | some c' =>
          simp only [hv, hr, Option.some.injEq] at h
          subst h
          simp only [List.lookup_cons, List.findSome?_cons, Line.gives, ih c' hr]
          by_cases hn : n = m
          · subst hn; simp [hv]
          · have h1 : (n == m) = false := by simpa using hn
            have h2 : ¬ m = n := fun e => hn e.symm
            simp [h1, h2]

/-- A file can be loaded if there is a value for each of its entries, and no token left. -/
theorem load_iff (ls : List Line) :
    (∃ c, loadConfig ls = some c) ↔ ∀ l ∈ ls, match l with
      | .token _ => False
      | .commented _ _ => True
      | .active _ v => pyValue v ≠ none := by
  induction ls with
  | nil => simp [loadConfig]
  | cons l r ih =>
    simp only [List.forall_mem_cons, ← ih]
    cases l with
    | token m => simp [loadConfig]
    | commented m v => simp [loadConfig]
    | active m v =>
      simp only [loadConfig]
      cases pyValue v <;> cases loadConfig r <;> simp

theorem gives_other (n : String) (l : Line) (h : l.name ≠ n) : l.gives n = none := by
  cases l <;> simp [Line.gives]
  intro e
  exact absurd e h

theorem name_entry (d : Data) (n : String) : (entryFor d n).name = n := by
  simp only [entryFor]; split <;> rfl

theorem name_sub (d : Data) (l : Line) : (sub (fun _ => true) (entryFor d) l).name = l.name := by
  cases l with
  | token n => exact name_entry d n
  | _ => rfl

theorem find_entry (d : Data) (t : List Line) (l : Line) (hn : (t.map Line.name).Nodup) (hl : l ∈ t) :
    (t.map (sub (fun _ => true) (entryFor d))).findSome? (Line.gives l.name) = (sub (fun _ => true) (entryFor d) l).gives l.name := by
  induction t with
  | nil => cases hl
  | cons x r ih =>
    simp only [List.map_cons, List.nodup_cons] at hn
    simp only [List.map_cons, List.findSome?_cons]
    rcases List.mem_cons.1 hl with h | h
    · subst h
      cases hg : (sub (fun _ => true) (entryFor d) l).gives l.name with
      | some v => rfl
      | none =>
        rw [List.findSome?_eq_none_iff]
        intro y hy
        obtain ⟨z, hz, rfl⟩ := List.mem_map.1 hy
        apply gives_other
        rw [name_sub]
        intro e
        exact hn.1 (List.mem_map.2 ⟨z, hz, e⟩)
    · have hx : (sub (fun _ => true) (entryFor d) x).gives l.name = none := by
        apply gives_other
        rw [name_sub]
        intro e
        exact hn.1 (List.mem_map.2 ⟨l, h, e.symm⟩)
      rw [hx]
      exact ih hn.2 h

end PySwitch.Settings
