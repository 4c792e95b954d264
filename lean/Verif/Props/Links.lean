import Verif.Lemmas.Links
import Verif.Spec.Links

/-!
C130: choosing an entry opens the entry with that name.

The property fails for names with `+`, `?`, `#`, and for presets also with `%` (see the witnesses), so the theorems which
say that the chosen entry is opened are partial.
-/

namespace PySwitch.Props

open PySwitch.Links PySwitch.Spec.Links

namespace C130

theorem twice (pre s : Text) (h : ∀ c ∈ pre, plain c = true) :
    encodeURI (encodeURI (pre ++ s)) = pre ++ encodeURI (encodeURI s) := by
  rw [encodeURI_append, encodeURI_plain pre h, encodeURI_append, encodeURI_plain pre h]

theorem mem_twice {x : Char} (hx : x ∈ reserved) (s : Text) : x ∈ encodeURI (encodeURI s) ↔ x ∈ s := by
  rw [mem_encodeURI hx, mem_encodeURI hx]

theorem pre_plain (pre : Text) (h : pre ∈ ["controller/".toList, "example/".toList, "template/".toList, "preset/".toList]) :
    ∀ c ∈ pre, plain c = true := by
  revert pre; decide +kernel

/-- No route before the right one fits. -/
theorem no_suffix {pathname pat pre : Text} {E : Text} (hp : '#' ∉ pat) (hpre : '#' ∉ pre) (hE : '#' ∉ E)
    (h : ∀ x, pat ≠ pre ++ x) : ('#' :: pat).isSuffixOf (pathname ++ '#' :: (pre ++ E)) = false :=
  not_suffix hp (by simp [hpre, hE]) (h E)

theorem ne_append {pat pre : Text} (h : pat.length < pre.length) : ∀ x, pat ≠ pre ++ x := by
  intro x e
  have := congrArg List.length e
  simp at this
  omega

theorem hit {pathname : Text} (hn : '#' ∉ pathname) (pat E : Text) :
    after ('#' :: pat) (pathname ++ '#' :: (pat ++ E)) = some E := by
  rw [after_skip _ _ _ hn, after_hit]

theorem miss {pathname : Text} (hn : '#' ∉ pathname) (pat s : Text) (hs : '#' ∉ s) (h : pat.isPrefixOf s = false) :
    after ('#' :: pat) (pathname ++ '#' :: s) = none := by
  rw [after_skip _ _ _ hn, after_miss pat s hs h]

/-- What follows the route's name is handed to its handler. -/
theorem route_eq {pathname E : Text} (hn : '#' ∉ pathname) (h1 : '#' ∉ E) (h2 : '?' ∉ E) :
    route (pathname ++ '#' :: ("controller/".toList ++ E)) = onController E ∧
    route (pathname ++ '#' :: ("example/".toList ++ E)) = onExample E ∧
    route (pathname ++ '#' :: ("template/".toList ++ E)) = onTemplate E ∧
    route (pathname ++ '#' :: ("preset/".toList ++ E)) = onPreset E := by
  have hr : ∀ pre : Text, '?' ∉ pre → routablePath (pathname ++ '#' :: (pre ++ E)) = pathname ++ '#' :: (pre ++ E) := by
    intro pre hp
    rw [routablePath_hash, routablePath_id _ (by simp [hp, h2])]
  have hs : ∀ pre : Text, '#' ∉ pre → 2 ≤ pre.length →
      ("#".toList.isSuffixOf (pathname ++ '#' :: (pre ++ E)) = false ∧
        "#/".toList.isSuffixOf (pathname ++ '#' :: (pre ++ E)) = false) := by
    intro pre hp hl
    exact ⟨no_suffix (pat := []) (by simp) hp h1 (ne_append (by simp; omega)),
      no_suffix (pat := ['/']) (by simp) hp h1 (ne_append (by simp; omega))⟩
  refine ⟨?_, ?_, ?_, ?_⟩
  · have a := hr "controller/".toList (by decide)
    have b := hs "controller/".toList (by decide) (by decide)
    have c := hit hn "controller/".toList E
    unfold route; dsimp only
    rw [a, b.1, b.2, show "#controller/".toList = '#' :: "controller/".toList from rfl, c]
    simp
  · have a := hr "example/".toList (by decide)
    have b := hs "example/".toList (by decide) (by decide)
    have c := hit hn "example/".toList E
    have d := miss hn "controller/".toList ("example/".toList ++ E) (by simp [h1]) (by rfl)
    unfold route; dsimp only
    rw [a, b.1, b.2, show "#controller/".toList = '#' :: "controller/".toList from rfl, d,
      show "#example/".toList = '#' :: "example/".toList from rfl, c]
    simp
  · have a := hr "template/".toList (by decide)
    have b := hs "template/".toList (by decide) (by decide)
    have c := hit hn "template/".toList E
    have d := miss hn "controller/".toList ("template/".toList ++ E) (by simp [h1]) (by rfl)
    have d2 := miss hn "example/".toList ("template/".toList ++ E) (by simp [h1]) (by rfl)
    unfold route; dsimp only
    rw [a, b.1, b.2, show "#controller/".toList = '#' :: "controller/".toList from rfl, d,
      show "#example/".toList = '#' :: "example/".toList from rfl, d2,
      show "#template/".toList = '#' :: "template/".toList from rfl, c]
    simp
  · have a := hr "preset/".toList (by decide)
    have b := hs "preset/".toList (by decide) (by decide)
    have c := hit hn "preset/".toList E
    have d := miss hn "controller/".toList ("preset/".toList ++ E) (by simp [h1]) (by rfl)
    have d2 := miss hn "example/".toList ("preset/".toList ++ E) (by simp [h1]) (by rfl)
    have d3 := miss hn "template/".toList ("preset/".toList ++ E) (by simp [h1]) (by rfl)
    unfold route; dsimp only
    rw [a, b.1, b.2, show "#controller/".toList = '#' :: "controller/".toList from rfl, d,
      show "#example/".toList = '#' :: "example/".toList from rfl, d2,
      show "#template/".toList = '#' :: "template/".toList from rfl, d3,
      show "#preset/".toList = '#' :: "preset/".toList from rfl, c]
    simp

/-- The name as the router gets it: `+` has become a space. -/
theorem decoded (s : Text) :
    sammyDecode (encodeURI (encodeURI s)) = some ((encodeURI s).map spaced) ∧
      decodeURI ((encodeURI s).map spaced) = some (s.map spaced) :=
  ⟨sammyDecode_encodeURI _, decodeURI_spaced s⟩

theorem location (pathname : Text) (e : Entry) :
    chosen pathname e = pathname ++ '#' :: ((match e with
      | .preset _ => "preset/".toList
      | .controller _ => "controller/".toList
      | .example _ => "example/".toList
      | .template _ => "template/".toList) ++ encodeURI (encodeURI (name e))) := by
  cases e with
  | preset id => rw [← twice _ _ (pre_plain _ (by simp))]; rfl
  | controller port => rw [← twice _ _ (pre_plain _ (by simp))]; rfl
  | «example» path => rw [← twice _ _ (pre_plain _ (by simp))]; rfl
  | template path => rw [← twice _ _ (pre_plain _ (by simp))]; rfl

theorem spaced_id (s : Text) (h : '+' ∉ s) : s.map spaced = s := by
  conv => rhs; rw [← List.map_id s]
  apply List.map_congr_left
  intro c hc
  rw [spaced, if_neg (fun e => h (by rw [← e]; exact hc))]; rfl

end C130

/-- Choosing a preset whose name has no `#`, `?`, `+` or `%` opens exactly this preset, whatever other characters are in
    its name: no other entry, and no error. Missing: names with these four characters. -/
theorem C130_preset_partial (pathname id : Text) (hn : '#' ∉ pathname) (h : Without ['#', '?', '+', '%'] id) :
    route (chosen pathname (.preset id)) = wanted (.preset id) := by
  have e := (C130.route_eq hn (mt (C130.mem_twice (by decide) id).mp (h '#' (by simp)))
    (mt (C130.mem_twice (by decide) id).mp (h '?' (by simp)))).2.2.2
  rw [C130.location]
  refine Eq.trans e ?_
  have hs := C130.spaced_id id (h '+' (by simp))
  have hd : decodeURI id = some id := decode_id _ _ (h '%' (by simp))
  simp [onPreset, (C130.decoded id).1, (C130.decoded id).2, hs, hd, done, wanted]

/-- Choosing a controller, an example or a template whose name has no `#`, `?` or `+` opens exactly this one.
    Missing: names with these three characters. (A controller named `pyswitch-default` stands for the default
    configuration.) -/
theorem C130_other_partial (pathname : Text) (e : Entry) (hn : '#' ∉ pathname) (h : Without ['#', '?', '+'] (name e))
    (hp : ∀ id, e ≠ .preset id) (hd : e ≠ .controller "pyswitch-default".toList) :
    route (chosen pathname e) = wanted e := by
  have r := C130.route_eq hn (mt (C130.mem_twice (by decide) (name e)).mp (h '#' (by simp)))
    (mt (C130.mem_twice (by decide) (name e)).mp (h '?' (by simp)))
  have hs := C130.spaced_id (name e) (h '+' (by simp))
  have d := C130.decoded (name e)
  rw [hs] at d
  rw [C130.location]
  cases e with
  | preset id => exact absurd rfl (hp id)
  | controller port =>
    refine Eq.trans r.1 ?_
    have hd' : port ≠ "pyswitch-default".toList := fun e => hd (by rw [e])
    simp only [onController, d.1, d.2, Option.bind_eq_bind, Option.bind_some]
    rw [show name (Entry.controller port) = port from rfl, if_neg hd']; rfl
  | «example» path =>
    refine Eq.trans r.2.1 ?_
    simp only [onExample, d.1, d.2, Option.bind_eq_bind, Option.bind_some]; rfl
  | template path =>
    refine Eq.trans r.2.2.1 ?_
    simp only [onTemplate, d.1, d.2, Option.bind_eq_bind, Option.bind_some]; rfl

/-- The default configuration is opened for its entry. -/
theorem C130_builtin (pathname : Text) (hn : '#' ∉ pathname) :
    route (call pathname "controller/pyswitch-default".toList) = .opened .builtin ∧
      route (chosen pathname (.controller "pyswitch-default".toList)) = .opened .builtin := by
  have e : encodeURI "controller/pyswitch-default".toList = "controller/".toList ++ "pyswitch-default".toList := by
    decide +kernel
  have r := (C130.route_eq (E := "pyswitch-default".toList) hn (by decide +kernel) (by decide +kernel)).1
  have o : onController "pyswitch-default".toList = .opened .builtin := by decide +kernel
  refine ⟨?_, ?_⟩
  · unfold call; rw [e, r, o]
  · rw [C130.location, show encodeURI (encodeURI (name (.controller "pyswitch-default".toList)))
      = "pyswitch-default".toList from by decide +kernel]
    exact r.trans o

/-- Different entries have different locations, whatever their names: choosing another entry never leaves the location
    as it is, so that the page would not go there. -/
theorem C130_distinct (pathname : Text) (e e' : Entry) (h : chosen pathname e = chosen pathname e') : e = e' := by
  have inj : ∀ a b : Text, encodeURI a = encodeURI b → a = b := by
    intro a b hab
    have h1 := decodeURI_encodeURI a
    rw [hab, decodeURI_encodeURI b] at h1
    injection h1 with h1; exact h1.symm
  rw [C130.location, C130.location] at h
  have h := List.append_cancel_left h
  injection h with _ h
  cases e <;> cases e' <;> simp at h ⊢ <;> exact inj _ _ (inj _ _ h)

/-- What is opened for names with `+` and `%` (without `#` and `?`): a controller, example or template with spaces in
    place of `+`; for a preset, escapes in its name are decoded, or an error is shown. -/
theorem C130_exact (pathname s : Text) (hn : '#' ∉ pathname) (h : Without ['#', '?'] s) :
    route (chosen pathname (.example s)) = wanted (.example (s.map fun c => if c = '+' then ' ' else c)) ∧
    route (chosen pathname (.template s)) = wanted (.template (s.map fun c => if c = '+' then ' ' else c)) ∧
    (∀ port, port = (s.map fun c => if c = '+' then ' ' else c) → port ≠ "pyswitch-default".toList →
      route (chosen pathname (.controller s)) = wanted (.controller port)) ∧
    route (chosen pathname (.preset s)) =
      match decodeURI (s.map fun c => if c = '+' then ' ' else c) with
      | some id => wanted (.preset id)
      | none => .failed := by
  have r := C130.route_eq hn (mt (C130.mem_twice (by decide) s).mp (h '#' (by simp)))
    (mt (C130.mem_twice (by decide) s).mp (h '?' (by simp)))
  have d := C130.decoded s
  have hsp : (fun c : Char => if c = '+' then ' ' else c) = spaced := rfl
  rw [hsp]
  refine ⟨?_, ?_, ?_, ?_⟩
  · rw [C130.location]
    refine Eq.trans r.2.1 ?_
    simp only [onExample, d.1, d.2, Option.bind_eq_bind, Option.bind_some]; rfl
  · rw [C130.location]
    refine Eq.trans r.2.2.1 ?_
    simp only [onTemplate, d.1, d.2, Option.bind_eq_bind, Option.bind_some]; rfl
  · intro port hport hne
    rw [C130.location]
    refine Eq.trans r.1 ?_
    subst hport
    simp only [onController, d.1, d.2, Option.bind_eq_bind, Option.bind_some]
    rw [if_neg hne]; rfl
  · rw [C130.location]
    refine Eq.trans r.2.2.2 ?_
    simp only [onPreset, d.1, d.2, Option.bind_eq_bind, Option.bind_some]
    cases decodeURI (s.map spaced) <;> rfl

/-- A `?` in a name (with no `#` in it) cuts off the rest of the name: the entry with the shorter name is opened. -/
theorem C130_query (pathname a b : Text) (hb : '#' ∉ b) (mk : Text → Entry)
    (hm : mk = .preset ∨ mk = .controller ∨ mk = .example ∨ mk = .template) :
    route (chosen pathname (mk (a ++ '?' :: b))) = route (chosen pathname (mk a)) := by
  have cut : ∀ x y : Text, '#' ∉ y → routablePath (x ++ '?' :: y) = routablePath x := by
    intro x y hy
    induction x with
    | nil => simp [routablePath, hy]
    | cons c x ih =>
      have hc : (c = '?' ∧ ¬ (x ++ '?' :: y).contains '#' = true) ↔ (c = '?' ∧ ¬ x.contains '#' = true) := by
        simp [hy]
      by_cases h : c = '?' ∧ ¬ x.contains '#' = true
      · rw [List.cons_append, routablePath, if_pos (hc.mpr h), routablePath, if_pos h]
      · rw [List.cons_append, routablePath, if_neg (fun hh => h (hc.mp hh)), routablePath, if_neg h, ih]
  have hr : ∀ x y : Text, routablePath x = routablePath y → route x = route y := by
    intro x y hxy; unfold route; rw [hxy]
  have he : encodeURI (encodeURI (a ++ '?' :: b)) = encodeURI (encodeURI a) ++ '?' :: encodeURI (encodeURI b) := by
    rw [encodeURI_append, encodeURI_append]; rfl
  have hb' : '#' ∉ encodeURI (encodeURI b) := mt (C130.mem_twice (by decide) b).mp hb
  apply hr
  rw [C130.location, C130.location]
  rcases hm with h | h | h | h <;> subst h <;> simp only [name] <;> rw [he] <;>
    simp only [← List.append_assoc, ← List.cons_append] <;> exact cut _ _ hb'

/-- An example or template is loaded from the folder with its path: the server, which undoes the escapes, sees this
    path. -/
theorem C130_folder (path : Text) :
    (∃ url, folderUrl (.example path) = some url ∧ decodeURIComponent url = some ("examples/".toList ++ path)) ∧
    (∃ url, folderUrl (.template path) = some url ∧ decodeURIComponent url = some ("templates/".toList ++ path)) := by
  refine ⟨⟨_, rfl, ?_⟩, ⟨_, rfl, ?_⟩⟩
  · have := decodeURIComponent_encodeURI ("examples/".toList ++ path)
    rwa [encodeURI_append, show encodeURI "examples/".toList = "examples/".toList from by decide +kernel] at this
  · have := decodeURIComponent_encodeURI ("templates/".toList ++ path)
    rwa [encodeURI_append, show encodeURI "templates/".toList = "templates/".toList from by decide +kernel] at this

/-- Decoding undoes encoding for every text. -/
theorem C130_encoding (s : Text) :
    decodeURI (encodeURI s) = some s ∧ decodeURIComponent (encodeURI s) = some s :=
  ⟨decodeURI_encodeURI s, decodeURIComponent_encodeURI s⟩

/-- A preset named `Lead+Delay` cannot be opened: the preset `Lead Delay` is opened instead. -/
theorem C130_plus_witness :
    route (chosen "/".toList (.preset "Lead+Delay".toList)) = wanted (.preset "Lead Delay".toList) := by decide +kernel

/-- A preset named `100%` cannot be opened, and for one named `50%41` the one named `50A` is opened. -/
theorem C130_percent_witness :
    route (chosen "/".toList (.preset "100%".toList)) = .failed ∧
    route (chosen "/".toList (.preset "50%41".toList)) = wanted (.preset "50A".toList) := by decide +kernel

/-- For a preset named `Rock?`, the one named `Rock` is opened. -/
theorem C130_query_witness :
    route (chosen "/".toList (.preset "Rock?".toList)) = wanted (.preset "Rock".toList) := by decide +kernel

/-- For a preset named `Lead #` the page scans for controllers, and the preset `#controller/X` opens the controller `X`. -/
theorem C130_hash_witness :
    route (chosen "/".toList (.preset "Lead #".toList)) = .opened .scan ∧
    route (chosen "/".toList (.preset "#controller/X".toList)) = wanted (.controller "X".toList) := by decide +kernel

/- A preset with spaces, quotes, umlauts and characters of three and four octets. -/
example : Without ['#', '?', '+', '%'] "Ünïcode \"ρig\" ⌘ 🎸 a/b&c=d".toList ∧
    chosen "/app/".toList (.preset "Ü 🎸".toList) = "/app/#preset/%25C3%259C%2520%25F0%259F%258E%25B8".toList ∧
    route "/app/#preset/%25C3%259C%2520%25F0%259F%258E%25B8".toList = wanted (.preset "Ü 🎸".toList) ∧
    route (chosen "/".toList (.preset "Ünïcode \"ρig\" ⌘ 🎸 a/b&c=d".toList)) =
      wanted (.preset "Ünïcode \"ρig\" ⌘ 🎸 a/b&c=d".toList) := by
  refine ⟨?_, ?_, ?_, ?_⟩
  · show ∀ c ∈ _, _; decide +kernel
  all_goals decide +kernel

/- A controller with `%` in its name, and an example. -/
example : route (chosen "/".toList (.controller "100% (MIDI)".toList)) = wanted (.controller "100% (MIDI)".toList) ∧
    route (chosen "/".toList (.example "Kemper Profiler/MIDICaptain 10/Twin Pagers".toList)) =
      wanted (.example "Kemper Profiler/MIDICaptain 10/Twin Pagers".toList) ∧
    folderUrl (.example "Line 6/X".toList) = some "examples/Line%206/X".toList := by decide +kernel

end PySwitch.Props
