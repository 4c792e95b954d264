import Verif.Spec.ActionIcons
import Verif.Lemmas.Checks
/-! C197: the icons of actions. -/

namespace PySwitch.Props
open PySwitch PySwitch.ActionIcons PySwitch.Spec.ActionIcons
open PySwitch.Properties (Text lit Param defaultValue)
open PySwitch.Editor.Checks (splitDot)
open PySwitch.Lemmas.Checks (splitDot_two)

namespace C197

theorem find_legal {α : Type} (l : List (Option Text × α)) (h : (l.filterMap (·.1)).Nodup) (name : Text) (v : α) :
    (l.find? fun a => a.1 == some name).map (·.2) = some v ↔ (some name, v) ∈ l := by
  induction l with
  | nil => simp
  | cons a l ih =>
    obtain ⟨k, w⟩ := a
    have hl : (l.filterMap (·.1)).Nodup := by
      cases k with
      | none => simpa using h
      | some k => simp only [List.filterMap_cons, List.nodup_cons] at h; exact h.2
    by_cases hk : k = some name
    · subst hk
      simp only [List.filterMap_cons, List.nodup_cons, List.mem_filterMap, not_exists, not_and] at h
      rw [List.find?_cons_of_pos (by simp)]
      simp only [Option.map_some, Option.some.injEq, List.mem_cons, Prod.mk.injEq, true_and]
      constructor
      · rintro rfl; exact .inl rfl
      · rintro (rfl | hm)
        · rfl
        · exact absurd rfl (h.1 (some name, v) hm)
    · rw [List.find?_cons_of_neg (by simpa using hk), ih hl]
      simp only [List.mem_cons, Prod.mk.injEq]
      constructor
      · exact .inr
      · rintro (⟨rfl, _⟩ | hm)
        · exact absurd rfl hk
        · exact hm

theorem argument_iff (c : Call) (h : Legal c) (name v : Text) : c.argument name = some v ↔ Has c name v := find_legal c.args h name v

theorem argument_none (c : Call) (h : Legal c) (name : Text) : c.argument name = none ↔ ∀ v, ¬ Has c name v := by
  constructor
  · intro hn v hv
    rw [← argument_iff c h, hn] at hv
    cases hv
  · intro hv
    cases ha : c.argument name with
    | none => rfl
    | some v => exact absurd ((argument_iff c h name v).mp ha) (hv v)

theorem given_iff (c : Call) (h : Legal c) (name : Text) : given (c.argument name) = true ↔ Set c name := by
  unfold Spec.ActionIcons.Set
  cases ha : c.argument name with
  | none =>
    constructor
    · intro hx; cases hx
    · rintro ⟨v, hv, _⟩; exact absurd hv ((argument_none c h name).mp ha v)
  | some v =>
    have hv := (argument_iff c h name v).mp ha
    simp only [given, Bool.and_eq_true, bne_iff_ne, ne_eq]
    constructor
    · rintro ⟨h1, h2⟩; exact ⟨v, hv, h1, h2⟩
    · rintro ⟨w, hw, h1, h2⟩
      obtain rfl : w = v := Option.some.inj (((argument_iff c h name w).mpr hw).symm.trans ha)
      exact ⟨h1, h2⟩

theorem onPage_iff (c : Call) (h : Legal c) (pager page : Text) :
    (c.pager = some pager ∧ pager ≠ [] ∧ c.page = some page) ↔ OnPage c pager page := by
  constructor
  · rintro ⟨hp, hne, hpg⟩
    have hid : c.argument (lit "id") = some page := by
      unfold Call.page at hpg
      rw [hp] at hpg
      cases pager with
      | nil => exact absurd rfl hne
      | cons x xs => exact hpg
    unfold Call.pager at hp
    split at hp
    · cases hp
    split at hp
    · cases hp
    rename_i hec hi
    simp only [Bool.not_eq_true', Bool.not_eq_false] at hec hi
    split at hp
    · rename_i p f hs
      obtain rfl := Option.some.inj hp
      obtain ⟨he, h1, h2⟩ := (splitDot_two _ _ _).mp hs
      obtain ⟨ec, hec2, _, _⟩ := (given_iff c h _).mp hec
      rw [(argument_iff c h _ _).mpr hec2, Option.getD_some] at he
      rw [hid] at hi
      simp only [given, Bool.and_eq_true, bne_iff_ne, ne_eq] at hi
      refine ⟨hne, hi.1, hi.2, (argument_iff c h _ _).mp hid, f, h1, h2, ?_⟩
      rw [he] at hec2
      simpa using hec2
    · cases hp
  · rintro ⟨hne, h1, h2, hid, f, hp1, hp2, hec⟩
    have ha := (argument_iff c h _ _).mpr hec
    have hi := (argument_iff c h _ _).mpr hid
    have hgec : given (c.argument (lit "enable_callback")) = true := by
      rw [ha]
      simp only [given, Bool.and_eq_true, bne_iff_ne, ne_eq]
      refine ⟨by simp, ?_⟩
      intro e
      have : '.' ∈ lit "None" := e ▸ (by simp : '.' ∈ pager ++ ['.'] ++ f)
      revert this
      decide
    have hgid : given (c.argument (lit "id")) = true := by
      rw [hi]
      simp [given, h1, h2]
    have hpager : c.pager = some pager := by
      unfold Call.pager
      rw [hgec, hgid, ha, Option.getD_some, (splitDot_two pager f _).mpr ⟨by simp, hp1, hp2⟩]
      rfl
    refine ⟨hpager, hne, ?_⟩
    unfold Call.page
    rw [hpager]
    cases pager with
    | nil => exact absurd rfl hne
    | cons x xs => exact hi

end C197

/-- C197, the LEDs: for an action whose definition is found, with the LEDs switched on or off in the code, the icon is shown exactly if they are on. Missing: proxies of pagers
(`C197_proxy_witness`), arguments without name (`C197_position_witness`). -/
theorem C197_leds_partial (lookup : Text → Option (List Param)) (c : Call) (hl : Legal c) (params : List Param) (hd : lookup c.name = some params)
    (p : Param) (hp : params.find? (fun q => q.name == lit "use_leds") = some p) (hm : p.md.default = none)
    (code : Text) (hv : Value c p code) (hc : code = lit "True" ∨ code = lit "False") :
    Icon.leds ∈ shown lookup c ↔ code = lit "True" := by
  have hn : p.name = lit "use_leds" := by have := List.find?_some hp; simpa using this
  have hicon : Icon.leds ∈ shown lookup c ↔ usesLeds c (some params) = true := by
    unfold shown icons
    rw [hd]
    simp only [List.mem_append]
    constructor
    · rintro (((h | h) | h) | h)
      · split at h
        · assumption
        · simp at h
      · split at h
        · split at h <;> simp at h
        · simp at h
      · split at h
        · simp at h
        · split at h <;> simp at h
      · split at h <;> simp at h
    · intro h; left; left; left; rw [if_pos h]; simp
  rw [hicon]
  have hne : ∃ x xs, code = x :: xs := by rcases hc with rfl | rfl <;> exact ⟨_, _, rfl⟩
  obtain ⟨x, xs, hx⟩ := hne
  unfold usesLeds
  rcases hv with hv | ⟨hv, hdef⟩
  · rw [hn] at hv
    rw [(C197.argument_iff c hl _ _).mpr hv, hx]
    simp
  · rw [hn] at hv
    rw [(C197.argument_none c hl _).mpr hv]
    simp only [parameterDefault, hp]
    have : defaultValue p = some code := by
      unfold defaultValue
      rw [hm, hdef, hx]
    rw [this]
    simp

/-- C197, the display: the icon is shown exactly for actions with a display, and names it. -/
theorem C197_display (lookup : Text → Option (List Param)) (c : Call) (hl : Legal c) (name : Text) :
    Icon.display name ∈ shown lookup c ↔ Has c (lit "display") name ∧ name ≠ [] ∧ name ≠ lit "None" := by
  unfold shown icons
  simp only [List.mem_append]
  constructor
  · rintro (((h | h) | h) | h)
    · split at h <;> simp at h
    · split at h
      · rename_i d hd
        split at h
        · rename_i hg
          simp only [List.mem_singleton, Icon.display.injEq] at h
          subst h
          simp only [given, Bool.and_eq_true, bne_iff_ne, ne_eq] at hg
          exact ⟨(C197.argument_iff c hl _ _).mp hd, hg⟩
        · simp at h
      · simp at h
    · split at h
      · simp at h
      · split at h <;> simp at h
    · split at h <;> simp at h
  · rintro ⟨h, h1, h2⟩
    left; left; right
    rw [(C197.argument_iff c hl _ _).mpr h]
    simp [given, h1, h2]

/-- C197, the pages: the icon of a page is shown exactly for the actions on it. -/
theorem C197_page (lookup : Text → Option (List Param)) (c : Call) (hl : Legal c) (pager page : Text) :
    Icon.page pager page ∈ shown lookup c ↔ OnPage c pager page := by
  rw [← C197.onPage_iff c hl]
  unfold shown icons
  simp only [List.mem_append]
  constructor
  · rintro (((h | h) | h) | h)
    · split at h <;> simp at h
    · split at h
      · split at h <;> simp at h
      · simp at h
    · split at h
      · rename_i x xs p hpg hp
        simp only [List.mem_singleton, Icon.page.injEq] at h
        obtain ⟨rfl, rfl⟩ := h
        refine ⟨hp, ?_, hpg⟩
        rintro rfl
        unfold Call.page at hpg
        rw [hp] at hpg
        cases hpg
      · split at h <;> simp at h
    · split at h <;> simp at h
  · intro h
    have hon := (C197.onPage_iff c hl pager page).mp h
    obtain ⟨hp, hne, hpg⟩ := h
    left; right
    rw [hp, hpg]
    cases page with
    | nil => exact absurd rfl hon.2.1
    | cons x xs => simp

/-- C197, the callbacks: the icon is shown exactly for actions which are enabled by something else than a page. -/
theorem C197_callback (lookup : Text → Option (List Param)) (c : Call) (hl : Legal c) :
    Icon.callback ∈ shown lookup c ↔ Set c (lit "enable_callback") ∧ ∀ pager page, ¬ OnPage c pager page := by
  rw [← C197.given_iff c hl]
  unfold shown icons
  simp only [List.mem_append]
  constructor
  · rintro (((h | h) | h) | h)
    · split at h <;> simp at h
    · split at h
      · split at h <;> simp at h
      · simp at h
    · split at h
      · simp at h
      · rename_i hno
        split at h
        · rename_i hg
          refine ⟨hg, fun pager page hon => ?_⟩
          obtain ⟨hp, _, hpg⟩ := (C197.onPage_iff c hl pager page).mpr hon
          cases page with
          | nil => exact hon.2.1 rfl
          | cons x xs => exact hno x xs pager hpg hp
        · simp at h
    · split at h <;> simp at h
  · rintro ⟨hg, hno⟩
    left; right
    split
    · rename_i x xs p hpg hp
      refine absurd ((C197.onPage_iff c hl p (x :: xs)).mp ⟨hp, ?_, hpg⟩) (hno p _)
      rintro rfl
      unfold Call.page at hpg
      rw [hp] at hpg
      cases hpg
    · rw [if_pos hg]; simp

/-- C197, the variables: the icon is shown exactly for actions which are defined as one. -/
theorem C197_assign (lookup : Text → Option (List Param)) (c : Call) : Icon.assign ∈ shown lookup c ↔ ∃ name, c.assign = some name ∧ name ≠ [] := by
  unfold shown icons
  simp only [List.mem_append]
  constructor
  · rintro (((h | h) | h) | h)
    · split at h <;> simp at h
    · split at h
      · split at h <;> simp at h
      · simp at h
    · split at h
      · simp at h
      · split at h <;> simp at h
    · split at h
      · rename_i x xs hx; exact ⟨_, hx, by simp⟩
      · simp at h
  · rintro ⟨name, hn, hne⟩
    right
    rw [hn]
    cases name with
    | nil => exact absurd rfl hne
    | cons x xs => simp

/-! ### Cases -/

/-- Some definitions of `web/htdocs/definitions/actions.json`. -/
def c197Lookup : Text → Option (List Param) := fun name =>
  if name = lit "TAP_TEMPO" then some [⟨lit "display", some (lit "None"), {}, none⟩, ⟨lit "use_leds", some (lit "False"), {}, none⟩]
  else if name = lit "PagerAction.proxy" then some [⟨lit "page_id", none, {}, none⟩, ⟨lit "use_leds", some (lit "True"), {}, none⟩]
  else none

/-- A tap button on a page. -/
example : let c : Call := ⟨lit "TAP_TEMPO", [(some (lit "id"), lit "2"), (some (lit "enable_callback"), lit "_pager.enable_callback"), (some (lit "use_leds"), lit "True")], none⟩
    (c.args.filterMap (·.1)).Nodup ∧ shown c197Lookup c = [.leds, .page (lit "_pager") (lit "2")] := by decide +kernel

/-- C197 fails for proxies of pagers: by default, they use the LEDs, and their definition is found for the text, but not for the icon. -/
theorem C197_proxy_witness :
    let c : Call := ⟨lit "_pager.proxy", [(some (lit "page_id"), lit "2")], none⟩
    (textDefinition [(lit "_pager", lit "PagerAction")] c197Lookup c).bind (fun ps => parameterDefault ps (lit "use_leds")) = some (lit "True") ∧
    shown c197Lookup c = [] := by decide +kernel

/-- C197 fails for arguments without name: this button has a display and uses the LEDs, and no icon says so. -/
theorem C197_position_witness :
    shown c197Lookup ⟨lit "TAP_TEMPO", [(none, lit "DISPLAY_HEADER_1"), (none, lit "True")], none⟩ = [] := by decide +kernel

end PySwitch.Props
