import Verif.Lemmas.Mapping
import Verif.Props.Wire
/-
Properties C16 to C20: parameter mappings.
-/
namespace PySwitch.Props
open PySwitch.Wire PySwitch.Wire.Spec PySwitch.Mapping PySwitch.Mapping.Spec

/-- C16: setting a 14 bit value on a SysEx template (six address bytes, and possibly one or two value bytes)
gives a message of valid data bytes with the same manufacturer and address which is read back as that value by
every response template of the same address. -/
theorem C16_round_trip (manufacturer data : List Nat) (h6 : 6 ≤ data.length) (h8 : data.length ≤ 8)
    (hd : Data7 data) (v : Nat) (hv : v < 16384) :
    ∃ data', setMsg .numeric (some (.sysex manufacturer data)) v = .ok (some (.sysex manufacturer data')) ∧
      data'.length = 8 ∧ Data7 data' ∧ data'.take 6 = data.take 6 ∧
      ∀ rdata, address rdata = address data →
        parseAgainst .numeric (.sysex manufacturer data') (some (.sysex manufacturer rdata))
          = .ok (some (.num v)) := by
  obtain ⟨a0, a1, a2, a3, a4, a5, tail, rfl⟩ : ∃ a0 a1 a2 a3 a4 a5 tail,
      data = a0 :: a1 :: a2 :: a3 :: a4 :: a5 :: tail := by
    match data, h6 with
    | a0 :: a1 :: a2 :: a3 :: a4 :: a5 :: tail, _ => exact ⟨_, _, _, _, _, _, _, rfl⟩
  have hdata : ((padTo8 (a0 :: a1 :: a2 :: a3 :: a4 :: a5 :: tail)).set 6 (v / 128)).set 7 (v % 128)
      = [a0, a1, a2, a3, a4, a5] ++ [v / 128, v % 128] := by
    rw [padTo8_eq]
    match tail, h8 with
    | [], _ => rfl
    | [_], _ => rfl
    | [_, _], _ => rfl
    | _ :: _ :: _ :: _, h8 => simp at h8
  have hd' : Data7 ([a0, a1, a2, a3, a4, a5] ++ [v / 128, v % 128]) := by
    intro b hb
    rcases List.mem_append.1 hb with hb | hb
    · exact hd b (by simp at hb ⊢; grind)
    · simp at hb
      omega
  refine ⟨[a0, a1, a2, a3, a4, a5] ++ [v / 128, v % 128], ?_, by simp, hd', by simp, ?_⟩
  · simp only [setMsg, hdata]
    rw [if_pos]
    rw [List.all_eq_true]
    intro b hb
    have := hd' b hb
    simp
    omega
  · intro rdata hr
    rw [parseAgainst_sysex, if_pos (by rw [hr]; rfl)]
    simp only
    rw [fromEnd_two, fromEnd_one]
    simp only
    have : v / 128 * 128 + v % 128 = v := by omega
    rw [this]

/-- C16: end to end: the message with the value is sent as bytes, the bytes are parsed by a receiver (followed
by anything else), and what it gets carries the value. -/
theorem C16_over_the_wire (m : Nat × Nat) (hm : m.1 < 128 ∧ m.2 < 128) (data : List Nat) (h6 : 6 ≤ data.length)
    (h8 : data.length ≤ 8) (hd : Data7 data) (v : Nat) (hv : v < 16384) (channels : List Nat) (ch : Nat)
    (hl : ch ∈ channels) (rest : List Nat) :
    ∃ msg got, setMsg .numeric (some (.sysex [0, m.1, m.2] data)) v = .ok (some msg) ∧
      (fromMessageBytes channels (toBytes ch msg ++ rest)).1 = some got ∧
      parseAgainst .numeric got (some (.sysex [0, m.1, m.2] data)) = .ok (some (.num v)) := by
  obtain ⟨data', h1, h2, h3, h4, h5⟩ := C16_round_trip [0, m.1, m.2] data h6 h8 hd v hv
  have := C04_round_trip channels ch (.sysex [0, m.1, m.2] data') rest ⟨hm.1, hm.2, h3⟩ (.inl rfl) hl
  exact ⟨_, _, h1, by rw [this], h5 data rfl⟩

example : setMsg .numeric (some (.sysex [0x00, 0x20, 0x33] [2, 127, 1, 0, 50, 3])) 16383
    = .ok (some (.sysex [0x00, 0x20, 0x33] [2, 127, 1, 0, 50, 3, 127, 127])) := by
  simp [setMsg, padTo8_eq]
example : Data7 [2, 127, 1, 0, 50, 3] := by simp [Data7]

/-- The limit of C16: for a template with more than eight data bytes the value is written to the bytes 6 and 7
but read from the last two bytes. -/
theorem C16_long_template :
    ∃ data msg, data.length = 9 ∧ setMsg .numeric (some (.sysex [0, 1, 2] data)) 300 = .ok (some msg) ∧
      parseAgainst .numeric msg (some (.sysex [0, 1, 2] data)) ≠ .ok (some (.num 300)) := by
  refine ⟨[2, 127, 1, 0, 50, 3, 0, 0, 0], .sysex [0, 1, 2] [2, 127, 1, 0, 50, 3, 2, 44, 0], rfl, ?_, ?_⟩
  · simp [setMsg, padTo8_eq]
  · decide

/-- A usable response template: not a SysEx of less than three bytes (the address starts at the third byte). -/
def GoodTemplate : Msg → Prop
  | .sysex _ d => 3 ≤ d.length
  | _ => True

/-- C17: a parameter with the response template `r` takes its value from a message exactly if the message
answers the template; otherwise the parameter does not change at all. -/
theorem C17_attribution (m : Mapping) (hm : m.twoPart = false) (r : Msg) (hr : m.response = .one r)
    (hg : GoodTemplate r) (msg : Msg) :
    (Answers msg r → ∃ v, parse m msg = .ok (true, { m with value := some v })) ∧
    (¬ Answers msg r → parse m msg = .ok (false, m)) := by
  simp only [parse, hm, parsePlain, hr, Bool.false_eq_true, if_false]
  match msg, r with
  | .sysex man d, .sysex man' d' =>
    by_cases hman : man = man'
    · subst hman
      rw [parseAgainst_sysex]
      by_cases ha : address d = address d'
      · rw [if_pos ha]
        refine ⟨fun _ => ?_, fun h => absurd ⟨rfl, ha⟩ h⟩
        have hlen := length_of_address d d' ha hg
        cases ht : m.type with
        | string => exact ⟨_, rfl⟩
        | numeric =>
          obtain ⟨f, a, b, rfl⟩ := split_last_two d (by omega)
          simp only [fromEnd_two, fromEnd_one]
          exact ⟨_, rfl⟩
      · rw [if_neg ha]
        exact ⟨fun h => absurd h.2 ha, fun _ => rfl⟩
    · refine ⟨fun h => absurd h.1 hman, fun _ => ?_⟩
      simp [parseAgainst, hman]
  | .cc c v ch, .cc c' v' ch' =>
    by_cases h : c = c' <;> simp [parseAgainst, Answers, h]
  | .pc p ch, .pc p' ch' => simp [parseAgainst, Answers]
  | .sysex .., .cc .. | .sysex .., .pc .. | .sysex .., .unknown .. | .sysex .., .bad ..
  | .cc .., .sysex .. | .cc .., .pc .. | .cc .., .unknown .. | .cc .., .bad ..
  | .pc .., .cc .. | .pc .., .sysex .. | .pc .., .unknown .. | .pc .., .bad ..
  | .unknown .., _ | .bad .., _ => simp [parseAgainst, Answers]

/-- C17: a numeric parameter gets the number carried by the answer. -/
theorem C17_value (m : Mapping) (hm : m.twoPart = false) (ht : m.type = .numeric) (r : Msg)
    (hr : m.response = .one r) (hg : GoodTemplate r) (msg : Msg) (ha : Answers msg r) :
    ∃ v, Carries msg v ∧ parse m msg = .ok (true, { m with value := some (.num v) }) := by
  simp only [parse, hm, parsePlain, hr, Bool.false_eq_true, if_false, ht]
  match msg, r, ha with
  | .sysex man d, .sysex _ d', ⟨rfl, ha⟩ =>
    have hlen := length_of_address d d' ha hg
    obtain ⟨f, a, b, rfl⟩ := split_last_two d (by omega)
    refine ⟨128 * a + b, ⟨f, a, b, rfl, rfl⟩, ?_⟩
    rw [parseAgainst_sysex, if_pos ha]
    simp only [fromEnd_two, fromEnd_one, Nat.mul_comm]
  | .cc c v ch, .cc _ v' ch', rfl => exact ⟨v, rfl, by simp [parseAgainst]⟩
  | .pc p ch, .pc p' ch', _ => exact ⟨p, rfl, by simp [parseAgainst]⟩

example : Answers (.sysex [0, 0x20, 0x33] [0, 0, 1, 0, 50, 3, 0, 1]) (.sysex [0, 0x20, 0x33] [2, 127, 1, 0, 50, 3])
    ∧ GoodTemplate (.sysex [0, 0x20, 0x33] [2, 127, 1, 0, 50, 3]) := by
  simp [Answers, address, GoodTemplate]
example : ¬ Answers (.sysex [0, 0x20, 0x33] [0, 0, 1, 0, 51, 3, 0, 1]) (.sysex [0, 0x20, 0x33] [2, 127, 1, 0, 50, 3])
    := by simp [Answers, address]

/-- C18: a string parameter gets all characters between the address and the last (terminating) byte. -/
theorem C18_string (m : Mapping) (hm : m.twoPart = false) (ht : m.type = .string) (man rdata : List Nat)
    (hr : m.response = .one (.sysex man rdata)) (head chars : List Nat) (last : Nat) (h6 : head.length = 6)
    (ha : address head = address rdata) :
    parse m (.sysex man (head ++ chars ++ [last])) = .ok (true, { m with value := some (.str chars) }) := by
  have ha' : address (head ++ chars ++ [last]) = address rdata := by
    rw [← ha]
    simp [address, List.getElem?_append, h6]
  simp only [parse, hm, parsePlain, hr, Bool.false_eq_true, if_false, ht]
  rw [parseAgainst_sysex, if_pos ha']
  have : slice (head ++ chars ++ [last]) 6 ((head ++ chars ++ [last]).length - 1) = chars := by
    have e : (head ++ chars ++ [last]).length - 1 = (head ++ chars).length := by simp
    rw [e, slice, List.take_left, ← h6, List.drop_left]
  simp only [this]

example : parse { type := .string, response := .one (.sysex [0, 0x20, 0x33] [2, 127, 3, 0, 0, 1]) }
      (.sysex [0, 0x20, 0x33] [0, 0, 3, 0, 0, 1, 72, 105, 0])
    = .ok (true, { type := .string, response := .one (.sysex [0, 0x20, 0x33] [2, 127, 3, 0, 0, 1]),
                   value := some (.str [72, 105]) }) := by decide

/-- Parse a history of messages; the flags tell which messages completed a result (`parse` succeeded and
`result_finished`, the condition under which `ClientRequest.parse` notifies the listeners). -/
def parseAll : Mapping → List Msg → Except PyErr (Mapping × List Bool)
  | m, [] => .ok (m, [])
  | m, x :: xs =>
    match parse m x with
    | .error e => .error e
    | .ok (b, m') =>
      match parseAll m' xs with
      | .error e => .error e
      | .ok (m'', bs) => .ok (m'', (b && resultFinished m') :: bs)

/-- Is this message a program change completing the rig ID, given the messages before (newest first)? -/
def completes (cc : Nat) (before : List Msg) : Msg → Bool
  | .pc _ _ => (pendingBank cc before).isSome
  | _ => false

def completions (cc : Nat) : List Msg → List Msg → List Bool
  | _, [] => []
  | before, x :: xs => completes cc before x :: completions cc (x :: before) xs

/-- C19: after any history of messages, the rig ID is the one assembled from the last completed pair of bank
CC and program change, and exactly the completing program changes are reported. -/
theorem C19_rig_id (bank x y : Nat) (c₁ c₂ : Option Nat) (m : Mapping) (hm : m.twoPart = true)
    (hr : m.response = .two (some (.cc bank x c₁)) (some (.pc y c₂))) (v₀ : Option Nat)
    (hv : m.value = v₀.map .num) (hp : m.part1 = none) (h : List Msg) :
    parseAll m h = .ok ({ m with value := (rigId bank v₀ h.reverse).map .num,
                                 part1 := pendingBank bank h.reverse }, completions bank [] h) := by
  have key : ∀ (h before : List Msg) (m : Mapping), m.twoPart = true →
      m.response = .two (some (.cc bank x c₁)) (some (.pc y c₂)) →
      m.value = (rigId bank v₀ before).map .num → m.part1 = pendingBank bank before →
      parseAll m h = .ok ({ m with value := (rigId bank v₀ (h.reverse ++ before)).map .num,
                                   part1 := pendingBank bank (h.reverse ++ before) },
                          completions bank before h) := by
    intro h
    induction h with
    | nil => intro before m _ _ h3 h4; simp [parseAll, completions, ← h3, ← h4]
    | cons msg h ih =>
      intro before m h1 h2 h3 h4
      rcases m with ⟨set', rq, rs, vl, ty, dp, tp, p1⟩
      simp only at h1 h2 h3 h4
      subst h1 h2 h3 h4
      have step : parse ⟨set', rq, .two (some (.cc bank x c₁)) (some (.pc y c₂)),
            (rigId bank v₀ before).map .num, ty, dp, true, pendingBank bank before⟩ msg = .ok
          ((match msg with
            | .cc c _ _ => c == bank
            | _ => completes bank before msg),
           ⟨set', rq, .two (some (.cc bank x c₁)) (some (.pc y c₂)),
            (rigId bank v₀ (msg :: before)).map .num, ty, dp, true, pendingBank bank (msg :: before)⟩) := by
        simp only [parse, if_true, parseTwoPart]
        cases msg with
        | cc c v ch =>
          by_cases hc : c = bank <;> simp [parseAgainst, hc, rigId, pendingBank]
        | pc p ch =>
          simp only [parseAgainst, rigId, pendingBank, completes]
          cases hp1 : pendingBank bank before <;> simp
        | sysex man d => simp [parseAgainst, rigId, pendingBank, completes]
        | unknown s => simp [parseAgainst, rigId, pendingBank, completes]
        | bad b => simp [parseAgainst, rigId, pendingBank, completes]
      simp only [parseAll, step]
      rw [ih (msg :: before) _ rfl rfl rfl rfl]
      simp only [List.reverse_cons, List.append_assoc, List.singleton_append, completions]
      congr 3
      simp only [resultFinished, if_true]
      cases msg <;> simp +contextual [completes, pendingBank]
  have := key h [] m hm hr (by simpa [rigId] using hv) (by simpa [pendingBank] using hp)
  simpa using this

example : parseAll { twoPart := true, response := .two (some (.cc 32 0 none)) (some (.pc 0 none)) }
      [.cc 32 1 (some 0), .cc 7 3 (some 0), .pc 5 (some 0), .pc 6 (some 0)]
    = .ok ({ twoPart := true, response := .two (some (.cc 32 0 none)) (some (.pc 0 none)),
             value := some (.num 133) }, [false, false, true, false]) := by decide

/-- C20: over every history of `get` calls with names: two calls return the same object exactly if the names
are equal, and the object is defined by the first call with that name. -/
theorem C20_shared {D : Type} (cs : List (Bool × String × D)) (hn : ∀ c ∈ cs, c.2.1 ≠ "") :
    ∃ rs : List Nat, (gets ⟨[]⟩ cs).2 = rs.map .ok ∧ rs.length = cs.length ∧
      (∀ (i j : Nat) (ci cj : Bool × String × D) (ri rj : Nat), cs[i]? = some ci → cs[j]? = some cj → rs[i]? = some ri → rs[j]? = some rj →
        (ri = rj ↔ ci.2.1 = cj.2.1)) ∧
      (∀ (i : Nat) (ci : Bool × String × D) (ri : Nat), cs[i]? = some ci → rs[i]? = some ri →
        ∃ first, cs.find? (fun c => c.2.1 == ci.2.1) = some first ∧
          (gets ⟨[]⟩ cs).1.mappings[ri]? = some (ci.2.1, first.2.2)) := by
  -- index of the first entry with a name
  have find_none : ∀ (n : String) (l : List (String × D)) (k : Nat),
      findName n l k = none ↔ n ∉ l.map Prod.fst := by
    intro n l
    induction l with
    | nil => intro k; simp [findName]
    | cons e l ih =>
      intro k
      obtain ⟨a, d⟩ := e
      by_cases h : a = n <;> simp [findName, h, ih]
      exact fun _ h' => h h'.symm
  have find_some : ∀ (n : String) (l : List (String × D)) (k i : Nat),
      findName n l k = some i → ∃ j, i = k + j ∧ ∃ d, l[j]? = some (n, d) := by
    intro n l
    induction l with
    | nil => intro k i h; simp [findName] at h
    | cons e l ih =>
      intro k i h
      obtain ⟨a, d⟩ := e
      by_cases ha : a = n
      · simp [findName, ha] at h
        exact ⟨0, by omega, d, by simp [ha]⟩
      · simp [findName, ha] at h
        obtain ⟨j, h1, d', h2⟩ := ih _ _ h
        exact ⟨j + 1, by omega, d', by simpa using h2⟩
  -- invariant: names in the store are distinct
  have key : ∀ (cs : List (Bool × String × D)) (s : Store D), (s.mappings.map Prod.fst).Nodup →
      (∀ c ∈ cs, c.2.1 ≠ "") →
      (∃ ext, (gets s cs).1.mappings = s.mappings ++ ext) ∧
      ((gets s cs).1.mappings.map Prod.fst).Nodup ∧
      (∀ e : String × D, e ∈ (gets s cs).1.mappings → e ∈ s.mappings ∨ (e.1 ∉ s.mappings.map Prod.fst ∧
        ∃ first, cs.find? (fun c => c.2.1 == e.1) = some first ∧ first.2.2 = e.2)) ∧
      ∃ rs : List Nat, (gets s cs).2 = rs.map .ok ∧ rs.length = cs.length ∧
        ∀ (i : Nat) (ci : Bool × String × D) (ri : Nat), cs[i]? = some ci → rs[i]? = some ri →
          ∃ d, (gets s cs).1.mappings[ri]? = some (ci.2.1, d) := by
    intro cs
    induction cs with
    | nil => intro s h _; exact ⟨⟨[], by simp [gets]⟩, by simpa [gets] using h, by intro e he; exact .inl he, [], rfl, rfl, by simp⟩
    | cons c cs ih =>
      intro s hs hn
      obtain ⟨t, n, d⟩ := c
      have hne : n ≠ "" := hn (t, n, d) (by simp)
      have hn' : ∀ c ∈ cs, c.2.1 ≠ "" := fun c hc => hn c (by simp [hc])
      simp only [gets, Mapping.get]
      rw [if_neg (by simp [hne])]
      cases hf : findName n s.mappings 0 with
      | some i =>
        obtain ⟨j, hj, d', hd'⟩ := find_some _ _ _ _ hf
        simp only [Nat.zero_add] at hj
        subst hj
        obtain ⟨⟨ext, he⟩, hnd, horig, rs, h1, h2, h3⟩ := ih s hs hn'
        refine ⟨⟨ext, he⟩, hnd, ?_, i :: rs, by simp [h1], by simp [h2], ?_⟩
        · intro e hmem
          rcases horig e hmem with h | ⟨h, first, hfirst, hd⟩
          · exact .inl h
          · refine .inr ⟨h, first, ?_, hd⟩
            have : n ≠ e.1 := by
              rintro rfl
              exact h (List.mem_map.2 ⟨(e.1, d'), List.mem_of_getElem? hd', rfl⟩)
            simp [this, hfirst]
        · intro k ci ri hci hri
          cases k with
          | zero =>
            simp at hci hri
            subst hci hri
            refine ⟨d', ?_⟩
            simp only [he]
            rw [List.getElem?_append_left]
            · exact hd'
            · exact (List.getElem?_eq_some_iff.1 hd').1
          | succ k =>
            exact h3 k ci ri (by simpa using hci) (by simpa using hri)
      | none =>
        have hnot := (find_none _ _ _).1 hf
        have hs' : ((s.mappings ++ [(n, d)]).map Prod.fst).Nodup := by
          rw [List.map_append, List.nodup_append]
          refine ⟨hs, by simp, ?_⟩
          intro a ha b hb
          simp at hb
          subst hb
          rintro rfl
          exact hnot ha
        obtain ⟨⟨ext, he⟩, hnd, horig, rs, h1, h2, h3⟩ := ih ⟨s.mappings ++ [(n, d)]⟩ hs' hn'
        refine ⟨⟨(n, d) :: ext, by simp [he]⟩, hnd, ?_, s.mappings.length :: rs, by simp [h1], by simp [h2], ?_⟩
        · intro e hmem
          rcases horig e hmem with h | ⟨h, first, hfirst, hd⟩
          · simp only [List.mem_append, List.mem_singleton] at h
            rcases h with h | rfl
            · exact .inl h
            · exact .inr ⟨hnot, (t, n, d), by simp , rfl⟩
          · simp at h
            refine .inr ⟨by simpa using h.1, first, ?_, hd⟩
            simp [Ne.symm h.2, hfirst]
        · intro k ci ri hci hri
          cases k with
          | zero =>
            simp at hci hri
            subst hci hri
            exact ⟨d, by simp [he]⟩
          | succ k =>
            exact h3 k ci ri (by simpa using hci) (by simpa using hri)
  obtain ⟨-, hnd, horig, rs, h1, h2, h3⟩ := key cs ⟨[]⟩ (by simp) hn
  refine ⟨rs, h1, h2, ?_, ?_⟩
  · intro i j ci cj ri rj hci hcj hri hrj
    obtain ⟨d, hd⟩ := h3 i ci ri hci hri
    obtain ⟨d', hd'⟩ := h3 j cj rj hcj hrj
    constructor
    · rintro rfl
      rw [hd] at hd'
      simp at hd'
      exact hd'.1
    · intro hname
      have e1 : ((gets ⟨[]⟩ cs).1.mappings.map Prod.fst)[ri]? = some ci.2.1 := by simp [hd]
      have e2 : ((gets ⟨[]⟩ cs).1.mappings.map Prod.fst)[rj]? = some ci.2.1 := by simp [hd', hname]
      exact (List.getElem?_inj (List.getElem?_eq_some_iff.1 e1).1 hnd).1 (e1.trans e2.symm)
  · intro i ci ri hci hri
    obtain ⟨d, hd⟩ := h3 i ci ri hci hri
    rcases horig _ (List.mem_of_getElem? hd) with h | ⟨-, first, hfirst, he⟩
    · simp at h
    · exact ⟨first, hfirst, by rw [hd, he]⟩

example : (gets (D := Nat) ⟨[]⟩ [(false, "a", 1), (true, "b", 2), (true, "a", 3)]).2 = [.ok 0, .ok 1, .ok 0] := by
  decide

end PySwitch.Props
