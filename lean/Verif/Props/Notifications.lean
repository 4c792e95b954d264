import Verif.Spec.Notifications

/-!
C173 and C174: the messages of the web application.
-/

namespace PySwitch.Props
open PySwitch.Notifications PySwitch.Notifications.Spec

namespace C173

theorem busy_append : ∀ (a b : List Ev) (c d : Bool), busy c d (a ++ b) = busy (busy c d a).1 (busy c d a).2 b
  | [], _, _, _ => rfl
  | e :: a, b, c, d => by cases e <;> simp only [List.cons_append, busy, busy_append a b]

/-- The handler belongs to the history. -/
def Good (h : Handler) (before : List Ev) : Prop :=
  ((busy false false before).1 = false ↔ h = .none) ∧ ((busy false false before).2 = true ↔ h = .transfer true)

theorem good_step (v : Text) (s : State) (before : List Ev) (h : Good s.handler before) (e : Ev) : Good (s.step v e).handler (before ++ [e]) := by
  obtain ⟨h1, h2⟩ := h
  unfold Good
  rw [busy_append]
  generalize busy false false before = p at *
  obtain ⟨c, d⟩ := p
  simp only at h1 h2
  cases e with
  | message => exact ⟨h1, h2⟩
  | click => exact ⟨h1, h2⟩
  | reset => exact ⟨h1, h2⟩
  | connect => simp [busy, State.step]
  | transfer =>
    simp only [busy, State.step]
    cases hh : s.handler <;> simp_all
  | finish =>
    simp only [busy, State.step]
    cases hh : s.handler with
    | none => simp_all
    | connected => simp_all
    | transfer b => cases b <;> simp_all
  | deviceError now msg =>
    simp only [busy, State.step]
    cases hh : s.handler with
    | none => simp_all
    | connected => simp_all
    | transfer b => cases b <;> simp_all [State.message]

/-- The element of a message. -/
def el (v : Text) (p : Nat × Given) : El := ⟨p.1, p.2.kind, content v p.2.kind p.2.msg, p.2.now, p.2.hide⟩

/-- What an event does with an element which is there. -/
def keeps (before : List Ev) (e : Ev) (x : El) : Bool :=
  match e with
  | .click k => x.id != k
  | .reset => false
  | _ => !(x.hide && (given (busy false false before).2 e).isSome)

/-- An element which is there stays. -/
def survives (x : El) (before : List Ev) : List Ev → Bool
  | [] => true
  | e :: es => keeps before e x && survives x (before ++ [e]) es

theorem survives_eq (v : Text) (n : Nat) (g : Given) : ∀ (es before : List Ev), survives (el v (n, g)) before es = !removed n g before es
  | [], _ => rfl
  | e :: es, before => by
    rw [survives, survives_eq v n g es]
    have : keeps before e (el v (n, g)) = !removes n g (busy false false before).2 e := by
      cases e <;> first | rfl | skip
      rename_i k
      simp only [keeps, el, bne, removes]
      rw [Bool.beq_comm]
    rw [this, removed, Bool.not_or]

theorem filter_all (l : List El) (f : El → Bool) (h : ∀ x, f x = true) : l.filter f = l := List.filter_eq_self.mpr fun x _ => h x

theorem step_els (v : Text) (s : State) (before : List Ev) (h : Good s.handler before) (e : Ev) :
    (s.step v e).els = ((given (busy false false before).2 e).map fun g => el v (s.next, g)).toList ++ s.els.filter (keeps before e) ∧
    (s.step v e).next = s.next + (given (busy false false before).2 e).toList.length := by
  cases e with
  | message now kind msg hide =>
    have : keeps before (.message now kind msg hide) = fun e => !e.hide := by funext x; simp [keeps, given]
    rw [this]
    exact ⟨rfl, rfl⟩
  | click k => exact ⟨rfl, rfl⟩
  | reset =>
    refine ⟨?_, rfl⟩
    have : keeps before .reset = fun _ => false := rfl
    rw [this]
    simp [State.step, given]
  | connect => exact ⟨(filter_all _ _ fun x => by simp [keeps, given]).symm, rfl⟩
  | transfer => exact ⟨(filter_all _ _ fun x => by simp [keeps, given]).symm, rfl⟩
  | finish => exact ⟨(filter_all _ _ fun x => by simp [keeps, given]).symm, rfl⟩
  | deviceError now msg =>
    have h2 := h.2
    cases hb : (busy false false before).2 with
    | true =>
      have h3 : s.handler = .transfer true := h2.mp hb
      have : keeps before (.deviceError now msg) = fun e => !e.hide := by funext x; simp [keeps, given, hb]
      rw [this, State.step, if_pos h3]
      exact ⟨rfl, rfl⟩
    | false =>
      have h3 : s.handler ≠ .transfer true := fun e => by rw [h2.mpr e] at hb; cases hb
      rw [State.step, if_neg h3]
      exact ⟨(filter_all _ _ fun x => by simp [keeps, given, hb]).symm, rfl⟩

theorem run_els (v : Text) : ∀ (es : List Ev) (s : State) (before : List Ev), Good s.handler before →
    (s.run v es).els = (remaining s.next before es).map (el v) ++ s.els.filter fun x => survives x before es
  | [], s, before, _ => by
    simp only [State.run, List.foldl_nil, remaining, List.map_nil, List.nil_append, survives]
    exact (filter_all _ _ fun _ => rfl).symm
  | e :: es, s, before, h => by
    have hstep := step_els v s before h e
    have ih := run_els v es (s.step v e) (before ++ [e]) (good_step v s before h e)
    rw [State.run, List.foldl_cons]
    rw [State.run] at ih
    rw [ih, hstep.1, hstep.2, remaining]
    have hsplit : ∀ l : List El, List.filter (fun x => survives x (before ++ [e]) es) (l.filter (keeps before e)) = l.filter fun x => survives x before (e :: es) := by
      intro l
      rw [List.filter_filter]
      congr 1
      funext x
      rw [survives, Bool.and_comm]
    cases hg : given (busy false false before).2 e with
    | none => simp only [Option.map_none, Option.toList_none, List.nil_append, List.length_nil, Nat.add_zero, hsplit]
    | some g =>
      simp only [Option.map_some, Option.toList_some, List.length_singleton, List.filter_append, hsplit, List.map_append, List.append_assoc]
      congr 2
      cases hr : removed s.next g (before ++ [e]) es with
      | true =>
        have := survives_eq v s.next g es (before ++ [e])
        rw [hr] at this
        simp [this]
      | false =>
        have := survives_eq v s.next g es (before ++ [e])
        rw [hr] at this
        simp [this]

end C173

/-- **C173**: after any history, exactly those messages are visible which the user has not clicked, which have been given after the last reset, which
have not been replaced (if they asked for this), and which are not older than three seconds if they are infos or notices of success. The newest
one is the first one. -/
theorem C173_visible (v : Text) (es : List Ev) (now : Nat) :
    ((({} : State).run v es).seen now).map (fun x => (x.id, x.kind, x.html)) =
      ((remaining 0 [] es).filter fun p => stays p.2 now).map fun p => (p.1, p.2.kind, content v p.2.kind p.2.msg) := by
  have h := C173.run_els v es {} [] ⟨by simp [busy], by simp [busy]⟩
  unfold State.seen
  rw [h]
  simp only [List.filter_nil, List.append_nil, List.filter_map, List.map_map]
  have : ((fun e : El => fadeTime e.kind == 0 || decide (now < e.since + fadeTime e.kind)) ∘ C173.el v) = fun p => stays p.2 now := by
    funext p
    obtain ⟨n, g⟩ := p
    obtain ⟨t, k, m, f⟩ := g
    cases k <;> rfl
  rw [this]
  rfl

/-- **C173**, errors: an error which is not removed by a click, a reset or (if it asked for this) by the next message is visible at any later
time. -/
theorem C173_error (v : Text) (es fs : List Ev) (now : Nat) (msg : Text) (later : Nat) (hide : Bool)
    (h : removed (messages [] es).length ⟨now, .error, msg, hide⟩ (es ++ [.message now .error msg hide]) fs = false) :
    ((messages [] es).length, Kind.error, content v .error msg) ∈
      (((({} : State).run v (es ++ .message now .error msg hide :: fs)).seen later).map fun x => (x.id, x.kind, x.html)) := by
  have key : ∀ (es before : List Ev) (n : Nat), removed (n + (messages before es).length) ⟨now, .error, msg, hide⟩ (before ++ es ++ [.message now .error msg hide]) fs = false →
      (n + (messages before es).length, (⟨now, .error, msg, hide⟩ : Given)) ∈ remaining n before (es ++ .message now .error msg hide :: fs) := by
    intro es
    induction es with
    | nil =>
      intro before n h
      simp only [messages, List.length_nil, Nat.add_zero, List.append_nil] at h
      simp [remaining, given, messages, h]
    | cons e es ih =>
      intro before n h
      have h' := h
      rw [messages] at h'
      rw [List.cons_append, remaining, messages]
      cases hg : given (busy false false before).2 e with
      | none =>
        rw [hg] at h'
        simp only [Option.toList_none, List.nil_append] at h' ⊢
        exact ih (before ++ [e]) n (by rw [List.append_assoc before [e] es]; exact h')
      | some g =>
        rw [hg] at h'
        simp only [Option.toList_some, List.length_append, List.length_singleton, ← Nat.add_assoc] at h' ⊢
        exact List.mem_append_left _ (ih (before ++ [e]) (n + 1) (by rw [List.append_assoc before [e] es]; exact h'))
  rw [C173_visible]
  have := key es [] 0 (by rw [Nat.zero_add]; exact h)
  rw [Nat.zero_add] at this
  exact List.mem_map.mpr ⟨_, List.mem_filter.mpr ⟨this, rfl⟩, rfl⟩

/-- Messages of all types with clicks; the error stays, the notice of success and the replaced message do not. -/
def c173Events : List Ev :=
  [.message 0 .error "first".toList false, .message 10 .success "done".toList false, .message 20 .info "wait".toList true,
    .message 30 .warning "old".toList false, .click 3, .connect, .transfer, .deviceError 40 "disk full".toList]

example : ((({} : State).run [] c173Events).seen 5000).map (fun x => (x.id, x.html)) = [(4, "disk full".toList), (0, "first".toList)] ∧
    ((({} : State).run [] c173Events).seen 1000).map (fun x => x.id) = [4, 1, 0] ∧
    removed 0 ⟨0, .error, "first".toList, false⟩ [.message 0 .error "first".toList false] (c173Events.drop 1) = false := by decide +kernel

/-! ### C174: errors are shown completely -/

namespace C174

theorem visible_len : ∀ (t : Text) (b : Bool), (visible b t).length ≤ t.length
  | [], b => by cases b <;> simp [visible]
  | c :: r, true => by
    rw [visible]
    exact Nat.le_succ_of_le (visible_len r _)
  | c :: r, false => by
    rw [visible]
    split
    · exact Nat.le_succ_of_le (visible_len r _)
    · exact Nat.succ_le_succ (visible_len r _)

theorem opens_iff (r : Text) : opens r = true ↔ ∃ c q, r = c :: q ∧ (c.isAlpha = true ∨ c = '/' ∨ c = '!' ∨ c = '?') := by
  cases r with
  | nil => simp [opens]
  | cons c q => simp [opens, or_assoc]

theorem visible_iff : ∀ t : Text, visible false t = t ↔ ¬ hasTag t
  | [] => by
    refine ⟨fun _ => ?_, fun _ => rfl⟩
    rintro ⟨a, c, r, h, _⟩
    cases a <;> cases h
  | x :: r => by
    rw [visible]
    by_cases hx : x = '<' ∧ opens r = true
    · rw [if_pos (by simp [hx.1, hx.2])]
      constructor
      · intro h
        have := visible_len r true
        rw [h] at this
        simp only [List.length_cons] at this
        omega
      · intro h
        exfalso
        obtain ⟨c, q, rfl, hc⟩ := (opens_iff r).mp hx.2
        exact h ⟨[], c, q, by rw [hx.1]; rfl, hc⟩
    · rw [if_neg (by simpa using hx)]
      simp only [List.cons.injEq, true_and]
      rw [visible_iff r]
      refine not_congr ⟨?_, ?_⟩
      · rintro ⟨a, c, q, rfl, hc⟩
        exact ⟨x :: a, c, q, rfl, hc⟩
      · rintro ⟨a, c, q, h, hc⟩
        cases a with
        | nil =>
          simp only [List.nil_append, List.cons.injEq] at h
          exact absurd ⟨h.1, (opens_iff r).mpr ⟨c, q, h.2, hc⟩⟩ hx
        | cons y a =>
          simp only [List.cons_append, List.cons.injEq] at h
          exact ⟨a, c, q, h.2, hc⟩

theorem visible_append : ∀ a b : Text, ¬ hasTag a → a.getLast? ≠ some '<' → visible false (a ++ b) = a ++ visible false b
  | [], b, _, _ => rfl
  | x :: a, b, h, hl => by
    rw [List.cons_append, visible]
    have hx : ¬ (x == '<' && opens (a ++ b)) = true := by
      intro hx
      simp only [Bool.and_eq_true, beq_iff_eq] at hx
      obtain ⟨c, q, hq, hc⟩ := (opens_iff _).mp hx.2
      cases a with
      | nil => exact hl (by rw [hx.1]; rfl)
      | cons y a =>
        simp only [List.cons_append, List.cons.injEq] at hq
        exact h ⟨[], y, a, by rw [hx.1]; rfl, by rw [hq.1]; exact hc⟩
    rw [if_neg hx, visible_append a b]
    · rfl
    · rintro ⟨p, c, q, rfl, hc⟩
      exact h ⟨x :: p, c, q, rfl, hc⟩
    · intro e
      refine hl ?_
      rw [List.getLast?_cons, e]
      rfl

theorem run_append (v : Text) (s : State) (a b : List Ev) : s.run v (a ++ b) = (s.run v a).run v b := by
  simp [State.run, List.foldl_append]

theorem run_good (v : Text) : ∀ (es : List Ev) (s : State) (before : List Ev), C173.Good s.handler before →
    C173.Good (s.run v es).handler (before ++ es)
  | [], s, before, h => by rw [List.append_nil]; exact h
  | e :: es, s, before, h => by
    have := run_good v es (s.step v e) (before ++ [e]) (C173.good_step v s before h e)
    rw [List.append_assoc] at this
    exact this

end C174

/-- **C174**: when an error of the application is reported, or an error of the device during a transfer, the first message visible starts with its
complete text. Missing: texts which contain something like a tag, and errors of the device at other times, see the witnesses. -/
theorem C174_complete_partial (v : Text) (es : List Ev) (now : Nat) (msg : Text) (e : Ev)
    (he : e = .message now .error msg false ∨ (e = .deviceError now msg ∧ (busy false false es).2 = true))
    (ht : ¬ hasTag msg) (hl : msg.getLast? ≠ some '<') :
    ∃ x rest, (({} : State).run v (es ++ [e])).seen now = x :: rest ∧ ∃ more, visible false x.html = msg ++ more := by
  have hgood := C174.run_good v es {} [] ⟨by simp [busy], by simp [busy]⟩
  rw [List.nil_append] at hgood
  have hstep : ∃ s : State, (({} : State).run v (es ++ [e])) = s.message v now .error msg false := by
    rw [C174.run_append]
    rcases he with rfl | ⟨rfl, hb⟩
    · exact ⟨_, rfl⟩
    · have := hgood.2.mp hb
      refine ⟨{ (({} : State).run v es) with handler := .transfer false }, ?_⟩
      show State.step v (({} : State).run v es) (.deviceError now msg) = _
      rw [State.step, if_pos this]
  obtain ⟨s, hs⟩ := hstep
  rw [hs]
  refine ⟨⟨s.next, .error, content v .error msg, now, false⟩, _, by rw [State.seen, State.message, List.filter_cons]; rfl, ?_⟩
  show ∃ more, visible false (content v .error msg) = msg ++ more
  unfold content
  split
  · rw [C174.visible_append _ _ ht hl]
    exact ⟨_, rfl⟩
  · exact ⟨[], by rw [List.append_nil]; exact (C174.visible_iff msg).mpr ht⟩

/-- **C174**: a text is shown as it is exactly if no tag begins in it. -/
theorem C174_text_partial (t : Text) : visible false t = t ↔ ¬ hasTag t := C174.visible_iff t

/-- **C174**: the text of a message is used as it is; only errors with a traceback of Python, anywhere in the text, are followed by a hint which names the version of the application. -/
theorem C174_hint (v : Text) (es : List Ev) (now : Nat) (kind : Kind) (msg : Text) (hide : Bool) :
    ∃ x rest, (({} : State).run v (es ++ [.message now kind msg hide])).seen now = x :: rest ∧
      (¬ (kind = .error ∧ "Traceback".toList <:+: msg) → x.html = msg) ∧
      (kind = .error ∧ "Traceback".toList <:+: msg → ∃ more, x.html = msg ++ more ∧ "PySwitch version matches ".toList ++ v <:+: more) := by
  have hinc : ∀ t s : Text, includes t s = true ↔ t <:+: s := by
    intro t s
    induction s with
    | nil => rw [includes]; simp
    | cons c r ih => rw [includes, Bool.or_eq_true, ih, List.infix_cons_iff, List.isPrefixOf_iff_prefix]
  rw [C174.run_append]
  generalize (({} : State).run v es) = s
  refine ⟨⟨s.next, kind, content v kind msg, now, hide⟩, (s.els.filter fun e => !e.hide).filter fun e => fadeTime e.kind == 0 || decide (now < e.since + fadeTime e.kind), ?_, ?_, ?_⟩
  · show (s.message v now kind msg hide).seen now = _
    rw [State.seen, State.message, List.filter_cons, if_pos]
    cases kind <;> simp [fadeTime]
  · intro h
    show content v kind msg = msg
    rw [← hinc] at h
    rw [content, if_neg h]
  · intro h
    rw [← hinc] at h
    refine ⟨hint v, ?_, ?_⟩
    · show content v kind msg = _
      rw [content, if_pos h]
    · unfold hint
      have e : "\n\nPlease check if your PySwitch version matches ".toList = "\n\nPlease check if your ".toList ++ "PySwitch version matches ".toList := by decide +kernel
      rw [e]
      exact ⟨_, _, by simp only [List.append_assoc]; rfl⟩

example : "Traceback".toList <:+: "PythonError: Traceback (most recent call last)".toList := ⟨"PythonError: ".toList, " (most recent call last)".toList, by decide +kernel⟩

/-- The hypotheses are met. -/
example : (busy false false [.connect, .transfer]).2 = true ∧ visible false "a < b".toList = "a < b".toList ∧
    ((({} : State).run [] [.connect, .transfer, .deviceError 0 "disk full".toList]).seen 0).map (fun x => visible false x.html) = ["disk full".toList] := by
  decide +kernel

/-- **C174** does not hold for errors with names in angle brackets, as in every traceback of the Python interpreter: parts of the text vanish. -/
theorem C174_tag_witness :
    visible false "File \"<exec>\", line 1, in <module>".toList = "File \"\", line 1, in ".toList := by decide +kernel

/-- **C174** does not hold for errors of the device which do not belong to a transfer: they are not shown, neither after connecting nor when the
transfer is finished. -/
theorem C174_device_witness (v : Text) (msg : Text) (now later : Nat) :
    (({} : State).run v [.connect, .deviceError now msg]).seen later = [] ∧
    (({} : State).run v [.connect, .transfer, .finish, .deviceError now msg]).seen later = [] := ⟨rfl, rfl⟩

end PySwitch.Props
