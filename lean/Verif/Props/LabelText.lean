import Verif.Spec.LabelText
import Verif.Lemmas.Num
/-
C80, C81: texts of labels.
-/
namespace PySwitch.Props
open PySwitch PySwitch.LabelText

namespace C80

/-- The state after a history. -/
structure Inv (c : LabelText.Config) (es : List Event) (st : LabelText.State) : Prop where
  name : c.showName = true → st.name = lastName es
  id : c.showId ≠ .no → st.id = lastId es
  pre : st.preselected = preselection es
  seen : st.seen = atLastTick es

theorem tick_fst (es : List Event) :
    (es.foldl (fun (s : Option Nat × Option Nat) e => match e with | .preselect b => (b, s.2) | .tick => (s.1, s.1) | _ => s)
      (none, none)).1 = preselection es := by
  have : ∀ (es : List Event) (a b : Option Nat),
      (es.foldl (fun (s : Option Nat × Option Nat) e => match e with | .preselect b => (b, s.2) | .tick => (s.1, s.1) | _ => s)
        (a, b)).1 = es.foldl (fun s e => match e with | .preselect b => b | _ => s) a := by
    intro es
    induction es with
    | nil => intro a b; rfl
    | cons e es ih => intro a b; cases e <;> exact ih _ _
  exact this es none none

theorem updateLabel_fields (c : LabelText.Config) (st : LabelText.State) :
    (c.updateLabel st).name = st.name ∧ (c.updateLabel st).id = st.id ∧ (c.updateLabel st).preselected = st.preselected ∧
    (c.updateLabel st).seen = st.seen := by
  obtain ⟨n, i, p, s, t⟩ := st
  unfold Config.updateLabel
  cases p with
  | some b => exact ⟨rfl, rfl, rfl, rfl⟩
  | none =>
    cases hs : c.showId <;> cases i <;> cases hn : c.showName <;> simp

theorem snoc (es : List Event) (e : Event) :
    lastName (es ++ [e]) = (match e with | .name n => n | _ => lastName es) ∧
    lastId (es ++ [e]) = (match e with | .id n => n | _ => lastId es) ∧
    preselection (es ++ [e]) = (match e with | .preselect b => b | _ => preselection es) ∧
    atLastTick (es ++ [e]) = (match e with | .tick => preselection es | _ => atLastTick es) := by
  refine ⟨?_, ?_, ?_, ?_⟩
  · simp only [lastName, List.foldl_append, List.foldl_cons, List.foldl_nil]; cases e <;> rfl
  · simp only [lastId, List.foldl_append, List.foldl_cons, List.foldl_nil]; cases e <;> rfl
  · simp only [preselection, List.foldl_append, List.foldl_cons, List.foldl_nil]; cases e <;> rfl
  · rw [← tick_fst es]
    simp only [atLastTick, List.foldl_append, List.foldl_cons, List.foldl_nil]
    cases e <;> rfl

theorem inv_step (c : LabelText.Config) (es : List Event) (st : LabelText.State) (h : Inv c es st) (e : Event) :
    Inv c (es ++ [e]) (c.step st e) := by
  obtain ⟨h1, h2, h3, h4⟩ := h
  obtain ⟨s1, s2, s3, s4⟩ := snoc es e
  constructor
  · intro hn
    rw [s1]
    cases e with
    | name n => simp [Config.step, hn, updateLabel_fields]
    | id n => simp only [Config.step]; split <;> simp [updateLabel_fields, h1 hn]
    | preselect b => exact h1 hn
    | tick =>
      simp only [Config.step]
      split
      · split
        · split <;> simp [updateLabel_fields, h1 hn]
        · exact h1 hn
      · exact h1 hn
  · intro hn
    rw [s2]
    cases e with
    | id n => simp [Config.step, hn, updateLabel_fields]
    | name n => simp only [Config.step]; split <;> simp [updateLabel_fields, h2 hn]
    | preselect b => exact h2 hn
    | tick =>
      simp only [Config.step]
      split
      · split
        · split <;> simp [updateLabel_fields, h2 hn]
        · exact h2 hn
      · exact h2 hn
  · rw [s3]
    cases e with
    | name n => simp only [Config.step]; split <;> simp [updateLabel_fields, h3]
    | id n => simp only [Config.step]; split <;> simp [updateLabel_fields, h3]
    | preselect b => rfl
    | tick =>
      simp only [Config.step]
      split
      · split
        · split <;> simp [updateLabel_fields, h3]
        · exact h3
      · exact h3
  · rw [s4]
    cases e with
    | name n => simp only [Config.step]; split <;> simp [updateLabel_fields, h4]
    | id n => simp only [Config.step]; split <;> simp [updateLabel_fields, h4]
    | preselect b => exact h4
    | tick =>
      simp only [Config.step, ← h3]
      split
      · next b hb =>
        split
        · split <;> simp [updateLabel_fields, hb]
        · next h => rw [hb]; simpa using h
      · next hb => exact hb.symm

theorem inv (c : LabelText.Config) (text : String) (es : List Event) : Inv c es (c.run text es) := by
  have : ∀ (n : Nat) (es : List Event), es.length = n → Inv c es (c.run text es) := by
    intro n
    induction n with
    | zero => intro es he; rw [List.length_eq_zero_iff.1 he]; exact ⟨fun _ => rfl, fun _ => rfl, rfl, rfl⟩
    | succ n ih =>
      intro es he
      rcases List.eq_nil_or_concat es with rfl | ⟨es', e, rfl⟩
      · simp at he
      · rw [List.concat_eq_append]
        have : c.run text (es' ++ [e]) = c.step (c.run text es') e := by simp [Config.run]
        rw [this]
        exact inv_step c es' _ (ih es' (by simpa using he)) e
  exact this _ es rfl

/-- The text for a state. -/
theorem updateLabel_text (c : LabelText.Config) (es : List Event) (st : LabelText.State) (h : Inv c es st) :
    (c.updateLabel st).text = (c.wanted es).getD st.text := by
  obtain ⟨n, i, p, s, t⟩ := st
  obtain ⟨h1, h2, h3, h4⟩ := h
  simp only at h1 h2 h3 h4
  unfold Config.updateLabel Config.wanted
  rw [← h3]
  cases p with
  | some b => rfl
  | none =>
    have hname : c.showName = true →
        c.nameText n = (if (lastName es).getD "" = "" then c.default else (lastName es).getD "") := by
      intro hn
      rw [← h1 hn]
      cases n with
      | none => simp [Config.nameText]
      | some n => rfl
    simp only
    cases hs : c.showId with
    | no =>
      cases hn : c.showName
      · simp
      · simpa using hname hn
    | rig =>
      rw [← h2 (by simp [hs])]
      cases i with
      | none =>
        cases hn : c.showName
        · simp
        · simpa using hname hn
      | some i =>
        cases hn : c.showName
        · simp
        · simpa using hname hn
    | bank =>
      rw [← h2 (by simp [hs])]
      cases i with
      | none =>
        cases hn : c.showName
        · simp
        · simpa using hname hn
      | some i =>
        cases hn : c.showName
        · simp
        · simpa using hname hn
    | both =>
      rw [← h2 (by simp [hs])]
      cases i with
      | none =>
        cases hn : c.showName
        · simp
        · simpa using hname hn
      | some i =>
        cases hn : c.showName
        · simp
        · simpa using hname hn

end C80

/-- C80. Whenever the label is refreshed, it shows the documented text for what is known at that time. -/
theorem C80_text_partial (c : LabelText.Config) (text : String) (es : List Event) (e : Event) (hr : c.refreshes es e = true)
    (t : String) (ht : c.wanted (es ++ [e]) = some t) : (c.run text (es ++ [e])).text = t := by
  have hi := C80.inv c text es
  have hi' := C80.inv c text (es ++ [e])
  have e1 : c.run text (es ++ [e]) = c.step (c.run text es) e := by simp [Config.run]
  rw [e1] at hi' ⊢
  obtain ⟨s1, s2, s3, s4⟩ := C80.snoc es e
  generalize c.run text es = st at hi hi' e1
  have key : ∀ st', c.step st e = c.updateLabel st' → (c.step st e).text = t := by
    intro st' he
    rw [he] at hi' ⊢
    obtain ⟨f1, f2, f3, f4⟩ := C80.updateLabel_fields c st'
    have : C80.Inv c (es ++ [e]) st' := ⟨by rw [← f1]; exact hi'.name, by rw [← f2]; exact hi'.id, by rw [← f3]; exact hi'.pre,
      by rw [← f4]; exact hi'.seen⟩
    rw [C80.updateLabel_text c _ _ this, ht]
    rfl
  cases e with
  | name n =>
    have hn : c.showName = true := by simpa [Config.refreshes, Config.shows] using hr
    exact key { st with name := n } (by simp [Config.step, hn])
  | id n =>
    have hn : c.showId ≠ .no := by simpa [Config.refreshes, Config.shows] using hr
    exact key { st with id := n } (by simp [Config.step, hn])
  | preselect b => simp [Config.refreshes, Config.shows] at hr
  | tick =>
    simp only [Config.refreshes, Config.shows, ← hi.pre, ← hi.seen] at hr
    cases hb : st.preselected with
    | none => simp [hb] at hr
    | some b =>
      simp only [hb] at hr
      have h1 : st.seen ≠ some b := by
        intro h; simp [h] at hr
      have h2 : (c.showName || c.showId ≠ .no) = true := by
        simp only [Option.isSome_some, Bool.false_or, Bool.and_eq_true] at hr
        exact hr.2
      refine key { st with seen := some b } ?_
      simp only [Config.step, hb, ne_eq, h1, not_false_eq_true, if_true]
      rw [if_pos h2]

example : ((⟨true, .both, "-"⟩ : LabelText.Config).run "x" ([.id (some 7), .preselect (some 4)] ++ [.name (some "Lead")])).text =
    "Bank 5" := by decide
example : ((⟨true, .both, "-"⟩ : LabelText.Config).run "x" ([.id (some 7), .preselect none] ++ [.name (some "Lead")])).text =
    "2-3 Lead" := by decide

/-- C80. Everything else leaves the text as it is. -/
theorem C80_keeps (c : LabelText.Config) (text : String) (es : List Event) (e : Event) (hr : c.refreshes es e = false) :
    (c.run text (es ++ [e])).text = (c.run text es).text := by
  have hi := C80.inv c text es
  have e1 : c.run text (es ++ [e]) = c.step (c.run text es) e := by simp [Config.run]
  rw [e1]
  generalize c.run text es = st at hi
  cases e with
  | name n =>
    have hn : c.showName = false := by simpa [Config.refreshes, Config.shows] using hr
    simp [Config.step, hn]
  | id n =>
    have hn : c.showId = .no := by simpa [Config.refreshes, Config.shows] using hr
    simp [Config.step, hn]
  | preselect b => rfl
  | tick =>
    simp only [Config.refreshes, Config.shows, ← hi.pre, ← hi.seen] at hr
    cases hb : st.preselected with
    | none => simp [Config.step, hb]
    | some b =>
      simp only [hb] at hr
      simp only [Config.step, hb]
      by_cases h1 : st.seen = some b
      · rw [if_neg (by simp [h1])]
      · rw [if_pos h1]
        have : ¬ (c.showName || decide (c.showId ≠ .no)) = true := by
          intro h
          rw [h] at hr
          simp [h1] at hr
        rw [if_neg this]

/-- C80. Different rigs have different ids on the display, and the number of the rig in its bank is shown as 1 to 5. -/
theorem C80_id (a b : Nat) (h : idText .both a = idText .both b) : a = b := by
  have hd : ∀ n : Nat, ∀ ch ∈ Nat.toDigits 10 n, ch ≠ '-' := by
    intro n ch hch he
    subst he
    exact absurd (Nat.isDigit_of_mem_toDigits (by decide) (by decide) hch) (by decide)
  have inj : ∀ a b : Nat, Nat.toDigits 10 a = Nat.toDigits 10 b → a = b := by
    intro a b h
    rw [← @Nat.ofDigitChars_ten_toDigits a, h, Nat.ofDigitChars_ten_toDigits]
  have split : ∀ (x y x' y' : List Char), (∀ c ∈ x, c ≠ '-') → (∀ c ∈ x', c ≠ '-') → x ++ '-' :: y = x' ++ '-' :: y' → x = x' ∧ y = y' := by
    intro x
    induction x with
    | nil =>
      intro y x' y' _ h' h
      cases x' with
      | nil => simpa using h
      | cons c x' => simp only [List.nil_append, List.cons_append, List.cons.injEq] at h; exact absurd h.1.symm (h' c (by simp))
    | cons c x ih =>
      intro y x' y' hx h' h
      cases x' with
      | nil => simp only [List.nil_append, List.cons_append, List.cons.injEq] at h; exact absurd h.1 (hx c (by simp))
      | cons c' x' =>
        simp only [List.cons_append, List.cons.injEq] at h
        obtain ⟨r1, r2⟩ := ih y x' y' (fun c hc => hx c (by simp [hc])) (fun c hc => h' c (by simp [hc])) h.2
        exact ⟨by rw [h.1, r1], r2⟩
  have hl : ∀ n, (idText .both n).toList = Nat.toDigits 10 (n / 5 + 1) ++ '-' :: Nat.toDigits 10 (n % 5 + 1) := by
    intro n
    simp [idText, String.toList_append]
  have h2 := congrArg String.toList h
  rw [hl, hl] at h2
  obtain ⟨r1, r2⟩ := split _ _ _ _ (hd _) (hd _) h2
  have := inj _ _ r1
  have := inj _ _ r2
  omega

example : idText .both 624 = "125-5" := by decide

/-- C80. The numbers count from 1: rig `r` of bank `b` (five rigs each) is shown as `r`, `b` or `b-r`. -/
theorem C80_numbers (b r : Nat) (hb : 1 ≤ b) (hr : 1 ≤ r ∧ r ≤ 5) :
    idText .rig (5 * (b - 1) + (r - 1)) = toString r ∧ idText .bank (5 * (b - 1) + (r - 1)) = toString b ∧
    idText .both (5 * (b - 1) + (r - 1)) = toString b ++ "-" ++ toString r := by
  have h1 : (5 * (b - 1) + (r - 1)) / 5 + 1 = b := by omega
  have h2 : (5 * (b - 1) + (r - 1)) % 5 + 1 = r := by omega
  simp only [idText, h1, h2, and_self]

example : idText .both 7 = "2-3" := by decide

/-- C80, disagreement: when a preselection is removed, the label keeps showing the bank until a value comes in. -/
theorem C80_stale (n : Nat) :
    ((⟨true, .both, "-"⟩ : LabelText.Config).run "x" ([.name (some "Lead"), .id (some 7), .preselect (some 4), .tick, .preselect none] ++
      List.replicate n .tick)).text = "Bank 5" := by
  induction n with
  | zero => decide
  | succ n ih =>
    rw [List.replicate_succ', ← List.append_assoc, C80_keeps]
    · exact ih
    · have : preselection ([.name (some "Lead"), .id (some 7), .preselect (some 4), .tick, .preselect none] ++ List.replicate n .tick) =
          none := by
        clear ih
        induction n with
        | zero => rfl
        | succ n ih => rw [List.replicate_succ', ← List.append_assoc, (C80.snoc _ _).2.2.1]; exact ih
      simp only [Config.refreshes, Config.shows, this]; rfl

/-- C80, disagreement: if a preselection is removed and made again between two updates, the label does not show it. -/
theorem C80_missed : ∃ es, preselection es = some 4 ∧ es.getLast? = some .tick ∧
    ((⟨true, .both, "-"⟩ : LabelText.Config).run "x" es).text = "2-3 Lead" :=
  ⟨[.id (some 7), .preselect (some 4), .tick, .preselect none, .name (some "Lead"), .preselect (some 4), .tick], by decide⟩

/-! ### C81 -/

/-- C81. A parameter label shows the last value reported: converted if there is a conversion for it, as it is otherwise; if the
value is lost, the text for that (converted, or the default text). -/
theorem C81_text (convert : Option (Option Val → Option String)) (default text : String) (vs : List (Option Val)) (v : Option Val) :
    (∀ f t, convert = some f → f v = some t → paramRun convert default text (vs ++ [v]) = t) ∧
    ((∀ f, convert = some f → f v = none) →
      (∀ n, v = some (.num n) → paramRun convert default text (vs ++ [v]) = toString n) ∧
      (∀ s, v = some (.str s) → paramRun convert default text (vs ++ [v]) = s) ∧
      (v = none → paramRun convert default text (vs ++ [v]) = default)) := by
  have : paramRun convert default text (vs ++ [v]) = paramText convert default v := by simp [paramRun]
  rw [this]
  constructor
  · intro f t hf ht
    simp [paramText, hf, ht]
  · intro hf
    have hb : convert.bind (fun f => f v) = none := by
      cases convert with
      | none => rfl
      | some f => exact hf f rfl
    simp only [paramText, hb]
    refine ⟨?_, ?_, ?_⟩
    · rintro n rfl; rfl
    · rintro s rfl; rfl
    · rintro rfl; rfl

/-- C81. Tempo: the number shown differs from the tempo (given in 64ths) by at most a half. -/
theorem C81_bpm (default text : String) (vs : List (Option Val)) (v : Nat) :
    ∃ n : Int, paramRun (some tempoText) default text (vs ++ [some (.num v)]) = toString n ++ " bpm" ∧
      2 * (64 * n - v) ≤ 64 ∧ 2 * (v - 64 * n) ≤ 64 := by
  refine ⟨pyRound ((v : Rat) / 64), ?_, ?_⟩
  · simp [paramRun, paramText, tempoText, convertBpm]
  · have h1 := (pyRound_near ((v : Rat) / 64)).1
    have h2 := (pyRound_near ((v : Rat) / 64)).2
    have e : (v : Rat) / 64 * 64 = v := Rat.div_mul_cancel (by decide)
    generalize pyRound ((v : Rat) / 64) = n at h1 h2
    have h3 : ((2 * (64 * n - v) : Int) : Rat) ≤ ((64 : Int) : Rat) := by
      simp only [Rat.intCast_mul, Rat.intCast_sub, Rat.intCast_natCast, Rat.intCast_ofNat]; grind
    have h4 : ((2 * (v - 64 * n) : Int) : Rat) ≤ ((64 : Int) : Rat) := by
      simp only [Rat.intCast_mul, Rat.intCast_sub, Rat.intCast_natCast, Rat.intCast_ofNat]; grind
    exact ⟨Rat.intCast_le_intCast.1 h3, Rat.intCast_le_intCast.1 h4⟩

example : paramRun (some tempoText) "-" "" [some (.num 7712)] = "120 bpm" := by decide +kernel

end PySwitch.Props
