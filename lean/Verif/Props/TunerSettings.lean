import Verif.Spec.TunerSettings
/-!
C178: the settings of a tuner element in the display editor.
-/
namespace PySwitch.Props
open PySwitch.TunerSettings PySwitch.TunerSettings.Spec
open PySwitch.Properties (Text lit isNumber)

namespace C178

theorem passed_eq (args : Args) (n d : Text) : passed args n d = match getParameter args n with | some v => code v | none => d := by
  have : (args.find? fun a => decide (a.1 = n)) = args.find? fun a => a.1 == n := by
    congr 1; funext a; by_cases h : a.1 = n <;> simp [h]
  rw [passed, this, getParameter]
  cases args.find? fun a => a.1 == n <;> rfl

theorem get_cons_ne {a : Text × Val} {n : Text} (h : a.1 ≠ n) (l : Args) : getParameter (a :: l) n = getParameter l n := by
  rw [getParameter, List.find?_cons_of_neg (by simp [h]), getParameter]

theorem get_cons_eq {a : Text × Val} {n : Text} (h : a.1 = n) (l : Args) : getParameter (a :: l) n = some a.2 := by
  rw [getParameter, List.find?_cons_of_pos (by simp [h])]; rfl

theorem setFirst_self (n : Text) (v : Val) (args : Args) (h : getParameter args n ≠ none) : getParameter (setFirst n v args) n = some v := by
  induction args with
  | nil => exact absurd rfl h
  | cons a as ih =>
    by_cases ha : a.1 = n
    · rw [setFirst, if_pos ha, get_cons_eq rfl]
    · rw [get_cons_ne ha] at h
      rw [setFirst, if_neg ha, get_cons_ne ha]
      exact ih h

theorem setFirst_other {n m : Text} (hm : m ≠ n) (v : Val) (args : Args) : getParameter (setFirst n v args) m = getParameter args m := by
  induction args with
  | nil => rfl
  | cons a as ih =>
    by_cases ha : a.1 = n
    · have h1 : a.1 ≠ m := fun e => hm (e ▸ ha)
      rw [setFirst, if_pos ha, get_cons_ne (fun e => hm e.symm), get_cons_ne h1]
    · rw [setFirst, if_neg ha]
      by_cases h1 : a.1 = m
      · rw [get_cons_eq h1, get_cons_eq h1]
      · rw [get_cons_ne h1, get_cons_ne h1]; exact ih

theorem get_append_one {n m : Text} (v : Val) (args : Args) :
    getParameter (args ++ [(n, v)]) m = (getParameter args m).or (if n = m then some v else none) := by
  induction args with
  | nil =>
    by_cases h : n = m
    · rw [List.nil_append, get_cons_eq h, if_pos h]; rfl
    · rw [List.nil_append, get_cons_ne h, if_neg h]; rfl
  | cons a as ih =>
    by_cases h : a.1 = m
    · rw [List.cons_append, get_cons_eq h, get_cons_eq h]; rfl
    · rw [List.cons_append, get_cons_ne h, get_cons_ne h, ih]

theorem set_self (args : Args) (n : Text) (v : Val) : getParameter (setParameter args n v) n = some v := by
  unfold setParameter
  split
  · rename_i h; rw [get_append_one, h, if_pos rfl]; rfl
  · rename_i h; exact setFirst_self n v args h

theorem set_other (args : Args) {n m : Text} (hm : m ≠ n) (v : Val) : getParameter (setParameter args n v) m = getParameter args m := by
  unfold setParameter
  split
  · rw [get_append_one, if_neg (fun e => hm e.symm), Option.or_none]
  · exact setFirst_other hm v args

theorem remove_self (args : Args) (n : Text) : getParameter (removeParameter args n) n = none := by
  induction args with
  | nil => rfl
  | cons a as ih =>
    unfold removeParameter at ih ⊢
    by_cases h : a.1 = n
    · rw [List.filter_cons_of_neg (by simp [h])]; exact ih
    · rw [List.filter_cons_of_pos (by simp [h]), get_cons_ne h]; exact ih

theorem remove_other (args : Args) {n m : Text} (hm : m ≠ n) : getParameter (removeParameter args n) m = getParameter args m := by
  induction args with
  | nil => rfl
  | cons a as ih =>
    unfold removeParameter at ih ⊢
    by_cases h : a.1 = n
    · rw [List.filter_cons_of_neg (by simp [h]), get_cons_ne (fun e => hm (e.symm.trans h))]; exact ih
    · rw [List.filter_cons_of_pos (by simp [h])]
      by_cases h1 : a.1 = m
      · rw [get_cons_eq h1, get_cons_eq h1]
      · rw [get_cons_ne h1, get_cons_ne h1]; exact ih

theorem argument_plain (k : Plain) : argument (.plain k) = k.name := by cases k <;> rfl

theorem argument_inj {s s' : Setting} (h : argument s = argument s') : s = s' := by
  have key : ∀ s s' : Setting, (decide (argument s = argument s')) = decide (s = s') := by
    intro s s'
    cases s with
    | plain k => cases s' with
      | plain k' => cases k <;> cases k' <;> decide +kernel
      | _ => cases k <;> decide +kernel
    | _ => cases s' with
      | plain k' => cases k' <;> decide +kernel
      | _ => decide +kernel
  have := key s s'
  rw [decide_eq_true h] at this
  exact of_decide_eq_true this.symm

theorem change_other (args : Args) (t : Text) (s : Setting) {m : Text} (hm : m ≠ argument s) :
    getParameter (change args t s) m = getParameter args m := by
  cases s with
  | scale =>
    by_cases h : t = lit "1"
    · rw [change, if_pos h]; exact remove_other args hm
    · rw [change, if_neg h]; exact set_other args hm _
  | note => exact set_other args hm _
  | deviance => exact set_other args hm _
  | plain k => rw [argument_plain] at hm; exact set_other args hm _
  | font => exact set_other args hm _

theorem change_self (args : Args) (t : Text) (s : Setting) (hs : s ≠ .font) : passed (change args t s) (argument s) (default s) = t := by
  rw [passed_eq]
  cases s with
  | scale =>
    by_cases h : t = lit "1"
    · rw [change, if_pos h, show argument .scale = lit "scale" from rfl, remove_self]; exact h.symm
    · rw [change, if_neg h, show argument .scale = lit "scale" from rfl, set_self]; rfl
  | note => rw [show argument .note = lit "mapping_note" from rfl, change, set_self]; rfl
  | deviance => rw [show argument .deviance = lit "mapping_deviance" from rfl, change, set_self]; rfl
  | plain k => rw [C178.argument_plain k, change, set_self]; rfl
  | font => exact absurd rfl hs

end C178

/-- C178, the code: a change gives the element what the user has entered, and leaves all other arguments as they are. Missing: the font, which replaces the
whole layout (`C178_font_witness`). -/
theorem C178_code_partial (args : Args) (t : Text) (s : Setting) (hs : s ≠ .font) :
    passed (change args t s) (argument s) (default s) = t ∧
    ∀ name d, name ≠ argument s → passed (change args t s) name d = passed args name d := by
  refine ⟨C178.change_self args t s hs, ?_⟩
  intro name d hn
  rw [C178.passed_eq, C178.passed_eq, C178.change_other args t s hn]

/-- C178, all settings: the settings are independent of each other in every case. -/
theorem C178_independent (mappings fonts : List Text) (args : Args) (t : Text) (s s' : Setting) (h : s' ≠ s) :
    shown mappings fonts (change args t s) s' = shown mappings fonts args s' := by
  have hn : argument s' ≠ argument s := fun e => h (C178.argument_inj e)
  have hg := C178.change_other args t s hn
  cases s' with
  | note => unfold shown; rw [show lit "mapping_note" = argument .note from rfl, hg]
  | deviance => unfold shown; rw [show lit "mapping_deviance" = argument .deviance from rfl, hg]
  | plain k => simp only [shown]; rw [show k.name = argument (.plain k) from by cases k <;> rfl, hg]
  | font => unfold shown; rw [show lit "layout" = argument .font from rfl, hg]
  | scale => unfold shown; rw [show lit "scale" = argument .scale from rfl, hg]

/-- C178, the dialog: an input which is code shows what the element gets, if its argument is code, and a number if the input is for numbers. Missing: the
mappings (`C178_note_witness`, `C178_deviance_witness`) and the font (`C178_layout_witness`). -/
theorem C178_shown_partial (mappings fonts : List Text) (args : Args) (s : Setting) (hs : simple s = true)
    (hc : ∀ v, getParameter args (argument s) = some v → ∃ t, v = .text t)
    (hn : s = .scale ∨ s = .plain .height ∨ s = .plain .width ∨ s = .plain .zoom → isNumber (passed args (argument s) (default s)) = true) :
    shown mappings fonts args s = .value (passed args (argument s) (default s)) := by
  have hv : ∀ d, valText ((getParameter args (argument s)).getD (.text d)) = passed args (argument s) d := by
    intro d
    rw [C178.passed_eq]
    cases hg : getParameter args (argument s) with
    | none => rfl
    | some v => obtain ⟨t, rfl⟩ := hc v hg; rfl
  cases s with
  | note => cases hs
  | deviance => cases hs
  | font => cases hs
  | scale =>
    have h1 := hn (.inl rfl)
    show Shown.value (numberInput _) = _
    rw [show lit "scale" = argument .scale from rfl, hv, numberInput]
    rw [show lit "1" = default .scale from rfl, h1]
    rfl
  | plain k =>
    have hd : k.default = default (.plain k) := by cases k <;> rfl
    show Shown.value (if k.number then numberInput _ else _) = _
    rw [show k.name = argument (.plain k) from by cases k <;> rfl, hv, hd]
    cases hk : k.number with
    | false => rfl
    | true =>
      have h1 := hn (by cases k <;> first | (simp; done) | exact absurd hk (by decide))
      rw [numberInput, h1]; rfl

/-- What has been entered is what the dialog shows when it is opened again. -/
theorem C178_again_partial (mappings fonts : List Text) (args : Args) (t : Text) (s : Setting) (hs : simple s = true)
    (hn : s = .scale ∨ s = .plain .height ∨ s = .plain .width ∨ s = .plain .zoom → isNumber t = true) :
    shown mappings fonts (change args t s) s = .value t := by
  have hf : s ≠ .font := by rintro rfl; cases hs
  have hp := C178.change_self args t s hf
  have := C178_shown_partial mappings fonts (change args t s) s hs ?_ (by rw [hp]; exact hn)
  · rw [this, hp]
  · intro v hv
    cases s with
    | note => cases hs
    | deviance => cases hs
    | font => cases hs
    | scale =>
      rw [change] at hv
      by_cases h1 : t = lit "1"
      · rw [if_pos h1, show argument .scale = lit "scale" from rfl, C178.remove_self] at hv; cases hv
      · rw [if_neg h1, show argument .scale = lit "scale" from rfl, C178.set_self] at hv
        exact ⟨t, (Option.some.inj hv).symm⟩
    | plain k =>
      rw [change, C178.argument_plain k, C178.set_self] at hv
      exact ⟨t, (Option.some.inj hv).symm⟩

/-! ### Cases -/

/-- The tuner of `examples/Kemper Profiler/MIDICaptain 10/Always Show Tuner/display.py:70-83`, with a note and a layout. -/
def c178Tuner : Args :=
  [(lit "mapping_deviance", .call (lit "KemperMappings.TUNER_DEVIANCE") []), (lit "mapping_note", .call (lit "KemperMappings.TUNER_NOTE") []),
    (lit "layout", .dict [(lit "font", lit "\"/fonts/PTSans-NarrowBold-40.pcf\""), (lit "stroke", lit "1")]), (lit "color_in_tune", .text (lit "Colors.GREEN"))]

/-- Options of the selections. -/
def c178Mappings : List Text := [lit "None", lit "KemperMappings.TUNER_DEVIANCE()", lit "KemperMappings.TUNER_NOTE()"]
/-- See above. -/
def c178Fonts : List Text := [lit "\"/fonts/H20.pcf\"", lit "\"/fonts/PTSans-NarrowBold-40.pcf\""]

example : change c178Tuner (lit "50") (.plain .height) = c178Tuner ++ [(lit "deviance_height", .text (lit "50"))] ∧
    passed (change c178Tuner (lit "50") (.plain .height)) (lit "color_in_tune") (lit "Colors.LIGHT_GREEN") = lit "Colors.GREEN" ∧
    shown c178Mappings c178Fonts (change c178Tuner (lit "50") (.plain .height)) (.plain .height) = .value (lit "50") ∧
    change (change c178Tuner (lit "2") .scale) (lit "1") .scale = c178Tuner := by decide +kernel

example : simple (.plain .height) = true ∧ isNumber (lit "50") = true := by decide +kernel

example : shown c178Mappings c178Fonts c178Tuner .font = .value (lit "\"/fonts/PTSans-NarrowBold-40.pcf\"") := by decide +kernel

/-- Another font loses the other attributes of the layout. -/
theorem C178_font_witness :
    getParameter (change c178Tuner (lit "\"/fonts/H20.pcf\"") .font) (lit "layout") = some (.dict [(lit "font", lit "'/fonts/H20.pcf'")]) ∧
    getParameter c178Tuner (lit "layout") = some (.dict [(lit "font", lit "\"/fonts/PTSans-NarrowBold-40.pcf\""), (lit "stroke", lit "1")]) := by
  decide +kernel

/-- C178, the inputs for numbers: they are empty if the code is not a number. -/
theorem C178_number (mappings fonts : List Text) (args : Args) (s : Setting) (hs : numeric s = true)
    (hc : ∀ v, getParameter args (argument s) = some v → ∃ t, v = .text t) (hn : isNumber (passed args (argument s) (default s)) = false) :
    shown mappings fonts args s = .value [] := by
  have hv : ∀ d, valText ((getParameter args (argument s)).getD (.text d)) = passed args (argument s) d := by
    intro d
    rw [C178.passed_eq]
    cases hg : getParameter args (argument s) with
    | none => rfl
    | some v => obtain ⟨t, rfl⟩ := hc v hg; rfl
  have key : ∀ d, isNumber (passed args (argument s) d) = false → numberInput (valText ((getParameter args (argument s)).getD (.text d))) = [] := by
    intro d h
    rw [hv, numberInput, if_neg (by rw [h]; simp)]
  cases s with
  | plain k =>
    cases k with
    | height => exact congrArg Shown.value (key _ hn)
    | width => exact congrArg Shown.value (key _ hn)
    | zoom => exact congrArg Shown.value (key _ hn)
    | _ => cases hs
  | scale => exact congrArg Shown.value (key _ hn)
  | _ => cases hs

example : numeric (.plain .zoom) = true ∧ isNumber (passed [(lit "deviance_zoom", .text (lit "ZOOM"))] (argument (.plain .zoom)) (default (.plain .zoom))) = false := by decide +kernel

theorem C178.strip_quoted (code path : Text) (hp : ∀ c ∈ path, c ≠ '"' ∧ c ≠ '\'') (h : Quoted code path) : stripQuotes code = path := by
  have hf : stripQuotes path = path := by
    unfold stripQuotes
    rw [List.filter_eq_self]
    intro c hc
    simp [hp c hc]
  rcases h with rfl | rfl
  · unfold stripQuotes at *
    rw [List.filter_append, List.filter_append, hf]
    simp
  · unfold stripQuotes at *
    rw [List.filter_append, List.filter_append, hf]
    simp

/-- C178, the font: it is shown in whichever quotes it is written, and one which is chosen is the font in the layout. -/
theorem C178_font (mappings fonts : List Text) (args : Args) (code path : Text) (hp : ∀ c ∈ path, c ≠ '"' ∧ c ≠ '\'') (h : Quoted code path) :
    (∀ before after, (∀ e ∈ before, e.1 ≠ lit "font") → getParameter args (lit "layout") = some (.dict (before ++ (lit "font", code) :: after)) →
      ['"'] ++ path ++ ['"'] ∈ fonts → shown mappings fonts args .font = .value (['"'] ++ path ++ ['"'])) ∧
    ∃ q, Quoted q path ∧ getParameter (change args code .font) (lit "layout") = some (.dict [(lit "font", q)]) := by
  have hs := C178.strip_quoted code path hp h
  constructor
  · intro before after hb hg hm
    have hx : (before ++ (lit "font", code) :: after).find? (fun e => e.1 == lit "font") = some (lit "font", code) := by
      rw [List.find?_append, List.find?_eq_none.mpr (by intro e he; simp [hb e he])]
      rw [Option.none_or, List.find?_cons_of_pos (by simp)]
    simp only [shown, hg, hx, hs]
    rw [select, if_pos hm]
  · refine ⟨_, .inr rfl, ?_⟩
    rw [change, C178.set_self, autoQuote, hs]

/-- The mapping of the note is not selected when a display is opened which has one. -/
theorem C178_note_witness :
    passed c178Tuner (lit "mapping_note") (lit "None") ∈ c178Mappings ∧ shown c178Mappings c178Fonts c178Tuner .note = .nothing := by
  decide +kernel

/-- The mapping of the deviance is not selected any more after the user has chosen it. -/
theorem C178_deviance_witness :
    shown c178Mappings c178Fonts (change c178Tuner (lit "KemperMappings.TUNER_DEVIANCE()") .deviance) .deviance = .nothing := by
  decide +kernel

/-- The settings cannot be opened if the layout has no font. -/
theorem C178_layout_witness (es : List (Text × Text)) (h : ∀ e ∈ es, e.1 ≠ lit "font") (mappings fonts : List Text) :
    shown mappings fonts [(lit "layout", .dict es)] .font = .error := by
  have : es.find? (fun e => e.1 == lit "font") = none := by
    rw [List.find?_eq_none]; intro e he; simp [h e he]
  show (match es.find? fun e => e.1 == lit "font" with | some e => select fonts (['"'] ++ stripQuotes e.2 ++ ['"']) | none => .error) = _
  rw [this]

example : ∀ e ∈ [(lit "stroke", lit "1")], e.1 ≠ lit "font" := by decide +kernel

end PySwitch.Props
