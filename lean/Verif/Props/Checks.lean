import Verif.Lemmas.Checks
import Verif.Props.Editor

/-!
The configuration editor warns exactly for displays which can be used more than once at a time.
-/

namespace PySwitch.Props
open PySwitch.Editor PySwitch.Editor.Checks PySwitch.Spec.Editor

namespace C117
open PySwitch.Lemmas.Checks

variable {text : Node → String}

theorem usages_eq (actions : List ActionDef) (d : String) : getDisplayUsages text actions d =
    if actions.any (fun a => a.args.any (positional text d)) then .error .type
    else .ok ((uses text d 0 actions).map fun u => (u.1, u.2.2)) := usagesIn_eq d actions 0

theorem together_map (pg pa : Option String) (l : List (Nat × Nat × ActionDef)) :
    together text pg pa (l.map fun u => (u.1, u.2.2)) =
      (l.filter fun u => pager text u.2.2 != pg || (page text u.2.2 == pa && pager text u.2.2 == pg)).map fun u => (u.1, u.2.2) := by
  simp only [together, List.filter_map]
  rfl

theorem visible_iff (a : ActionDef) (pg pa : Option String) :
    (pager text a != pg || (page text a == pa && pager text a == pg)) = true ↔ (pager text a ≠ pg ∨ page text a = pa) := by
  simp only [Bool.or_eq_true, Bool.and_eq_true, bne_iff_ne, beq_iff_eq]
  by_cases h : pager text a = pg <;> simp [h]

/-- The actions of a group of more than one usage. -/
theorem group_iff (d : String) (actions : List ActionDef) (i : Nat) :
    (∃ x, (∃ u ∈ (uses text d 0 actions).map (fun u => (u.1, u.2.2)), x = (pager text u.2, page text u.2)) ∧
      (together text x.1 x.2 ((uses text d 0 actions).map fun u => (u.1, u.2.2))).length > 1 ∧
      i ∈ (together text x.1 x.2 ((uses text d 0 actions).map fun u => (u.1, u.2.2))).map (·.1)) ↔
    ∃ k j l, Collide text actions d i k j l := by
  have hnd := nodup_uses (text := text) d actions 0
  constructor
  · rintro ⟨x, ⟨u, hu, rfl⟩, hl, hi⟩
    obtain ⟨w, hw, rfl⟩ := List.mem_map.1 hu
    rw [together_map] at hl hi
    rw [List.length_map] at hl
    simp only [List.map_map, List.mem_map, Function.comp] at hi
    obtain ⟨v, hv, rfl⟩ := hi
    obtain ⟨hv1, hv2⟩ := List.mem_filter.1 hv
    rw [visible_iff] at hv2
    -- the partner
    have : ∃ y ∈ uses text d 0 actions, y ≠ v ∧
        (pager text y.2.2 ≠ pager text v.2.2 ∨ page text y.2.2 = page text v.2.2) := by
      by_cases hvw : v = w
      · obtain ⟨y, hy, z, hz, hne, h1, h2⟩ := (two_iff _ _ hnd).1 hl
        rw [visible_iff] at h1 h2
        subst hvw
        by_cases hyv : y = v
        · exact ⟨z, hz, fun e => hne (hyv.trans e.symm), h2⟩
        · exact ⟨y, hy, hyv, h1⟩
      · refine ⟨w, hw, fun e => hvw e.symm, ?_⟩
        rcases hv2 with h | h
        · exact .inl (Ne.symm h)
        · exact .inr h.symm
    obtain ⟨y, hy, hne, hc⟩ := this
    obtain ⟨j, k, b, hcol, _⟩ := (together_iff d actions v).1 ⟨y, hy, hne, hv1, hc⟩
    exact ⟨v.2.1, j, k, hcol⟩
  · rintro ⟨k, j, l, hcol⟩
    have hcol' := hcol
    obtain ⟨_, _, a, b, _, _, ha, hb, _⟩ := hcol'
    obtain ⟨y, hy, hne, hu, hc⟩ := (together_iff d actions (i, k, a)).2 ⟨j, l, b, hcol, ha, hb⟩
    refine ⟨(pager text a, page text a), ⟨(i, a), List.mem_map.2 ⟨_, hu, rfl⟩, rfl⟩, ?_, ?_⟩
    · rw [together_map, List.length_map]
      refine (two_iff _ _ hnd).2 ⟨y, hy, (i, k, a), hu, hne, (visible_iff ..).2 hc, (visible_iff ..).2 (.inr rfl)⟩
    · rw [together_map]
      simp only [List.map_map, List.mem_map]
      exact ⟨(i, k, a), List.mem_filter.2 ⟨hu, (visible_iff ..).2 (.inr rfl)⟩, rfl⟩

theorem checkDisplay_iff (d : String) (actions : List ActionDef) (msgs : List Message) :
    let r := checkDisplay text d ((uses text d 0 actions).map fun u => (u.1, u.2.2)) msgs
    (∀ e, Warned r e ↔ Warned msgs e ∨ e = d ∧ ∃ i k j l, Collide text actions d i k j l) ∧
    (∀ e i, Listed r e i ↔ Listed msgs e i ∨ e = d ∧ ∃ k j l, Collide text actions d i k j l) ∧
    ((msgs.map Message.value).Nodup → (r.map Message.value).Nodup) := by
  intro r
  have hr : r = (groups (((uses text d 0 actions).map fun u => (u.1, u.2.2)).foldl
      (fun acc u => addPage (pager text u.2) (page text u.2) acc) [])).foldl
      (fun m x => warn text d ((uses text d 0 actions).map fun u => (u.1, u.2.2)) x.1 x.2 m) msgs := by
    simp only [r, checkDisplay]
    exact fold_groups (fun pg pa m => warn text d ((uses text d 0 actions).map fun u => (u.1, u.2.2)) pg pa m) _ _
  obtain ⟨h1, h2, h3⟩ := fold_warn (text := text) d ((uses text d 0 actions).map fun u => (u.1, u.2.2))
    (groups (((uses text d 0 actions).map fun u => (u.1, u.2.2)).foldl
      (fun acc u => addPage (pager text u.2) (page text u.2) acc) [])) msgs
  rw [← hr] at h1 h2 h3
  have hg : ∀ x, x ∈ groups (((uses text d 0 actions).map fun u => (u.1, u.2.2)).foldl
      (fun acc u => addPage (pager text u.2) (page text u.2) acc) []) ↔
      ∃ u ∈ (uses text d 0 actions).map (fun u => (u.1, u.2.2)), x = (pager text u.2, page text u.2) := by
    intro x; rw [mem_pagers]; simp [groups]
  simp only [hg] at h1 h2
  refine ⟨fun e => ?_, fun e i => ?_, h3⟩
  · rw [h1]
    refine or_congr Iff.rfl (and_congr Iff.rfl ?_)
    constructor
    · rintro ⟨x, hx, hl⟩
      have hm : ∃ i, i ∈ (together text x.1 x.2 ((uses text d 0 actions).map fun u => (u.1, u.2.2))).map (·.1) := by
        cases ht : together text x.1 x.2 ((uses text d 0 actions).map fun u => (u.1, u.2.2)) with
        | nil => simp [ht] at hl
        | cons a r => exact ⟨a.1, by simp⟩
      obtain ⟨i, hi⟩ := hm
      exact ⟨i, (group_iff d actions i).1 ⟨x, hx, hl, hi⟩⟩
    · rintro ⟨i, h⟩
      obtain ⟨x, hx, hl, _⟩ := (group_iff d actions i).2 h
      exact ⟨x, hx, hl⟩
  · rw [h2]
    refine or_congr Iff.rfl (and_congr Iff.rfl ?_)
    exact group_iff d actions i

theorem check_iff (actions : List ActionDef) : ∀ (displays : List String) (msgs r : List Message),
    check text actions displays msgs = .ok r →
    (∀ e, Warned r e ↔ Warned msgs e ∨ e ∈ displays ∧ ∃ i k j l, Collide text actions e i k j l) ∧
    (∀ e i, Listed r e i ↔ Listed msgs e i ∨ e ∈ displays ∧ ∃ k j l, Collide text actions e i k j l) ∧
    ((msgs.map Message.value).Nodup → (r.map Message.value).Nodup)
  | [], msgs, r, h => by simp [check] at h; subst h; simp
  | d :: ds, msgs, r, h => by
    simp only [check, usages_eq] at h
    by_cases hp : actions.any (fun a => a.args.any (positional text d)) = true
    · simp [hp] at h
    · simp only [hp, if_false, Bool.false_eq_true] at h
      obtain ⟨h1, h2, h3⟩ := check_iff actions ds _ r h
      obtain ⟨g1, g2, g3⟩ := checkDisplay_iff (text := text) d actions msgs
      refine ⟨fun e => ?_, fun e i => ?_, fun hn => h3 (g3 hn)⟩
      · rw [h1, g1, or_assoc]
        refine or_congr Iff.rfl ?_
        simp only [List.mem_cons]
        constructor
        · rintro (⟨rfl, h⟩ | ⟨h, h'⟩)
          · exact ⟨.inl rfl, h⟩
          · exact ⟨.inr h, h'⟩
        · rintro ⟨rfl | h, h'⟩
          · exact .inl ⟨rfl, h'⟩
          · exact .inr ⟨h, h'⟩
      · rw [h2, g2, or_assoc]
        refine or_congr Iff.rfl ?_
        simp only [List.mem_cons]
        constructor
        · rintro (⟨rfl, h⟩ | ⟨h, h'⟩)
          · exact ⟨.inl rfl, h⟩
          · exact ⟨.inr h, h'⟩
        · rintro ⟨rfl | h, h'⟩
          · exact .inl ⟨rfl, h'⟩
          · exact .inr ⟨h, h'⟩

theorem messages_eq {tree : Data} {hardware displays : List String} {actions msgs}
    (ha : allActions tree hardware = .ok actions) (h : messages text tree hardware displays = .ok msgs) :
    check text actions displays [] = .ok msgs := by
  simpa [messages, ha] using h

end C117

/-- **C117** If the checks come to an end, there is a warning for a display if and only if there are pages
of the pagers with which it is used twice at the same time. -/
theorem C117_warned_partial (text : Node → String) (tree : Data) (hardware displays : List String) (actions : List ActionDef)
    (msgs : List Message) (ha : allActions tree hardware = .ok actions)
    (h : messages text tree hardware displays = .ok msgs) (d : String) :
    (∃ m ∈ msgs, m.value = d) ↔ d ∈ displays ∧ ∃ i k j l, Collide text actions d i k j l := by
  have := (C117.check_iff actions displays [] msgs (C117.messages_eq ha h)).1 d
  simpa [Lemmas.Checks.Warned] using this

/-- **C117** The warning is shown at exactly those actions which use the display together with another
action, or a second time, with some pages of the pagers. -/
theorem C117_listed_partial (text : Node → String) (tree : Data) (hardware displays : List String) (actions : List ActionDef)
    (msgs : List Message) (ha : allActions tree hardware = .ok actions)
    (h : messages text tree hardware displays = .ok msgs) (d : String) (i : Nat) :
    (∃ m ∈ messagesForAction msgs i, m.value = d) ↔ d ∈ displays ∧ ∃ k j l, Collide text actions d i k j l := by
  have := (C117.check_iff actions displays [] msgs (C117.messages_eq ha h)).2.1 d i
  simp [Lemmas.Checks.Listed] at this
  rw [← this]
  simp only [messagesForAction, List.mem_flatMap, List.mem_map, List.mem_filter, beq_iff_eq]
  constructor
  · rintro ⟨m, ⟨m', hm', x, ⟨hx, rfl⟩, rfl⟩, hv⟩
    exact ⟨m', hm', hv, hx⟩
  · rintro ⟨m, hm, hv, hi⟩
    exact ⟨m, ⟨m, hm, i, ⟨hi, rfl⟩, rfl⟩, hv⟩

/-- **C117** The checks regard all actions of the inputs which the hardware has: for each port in the
configuration its actions and then its actions for holding, in the order of the ports; ports which are not in the
configuration are skipped. -/
theorem C117_regarded (tree : Data) (hardware : List String) (L : String → List ActionDef)
    (h : ∀ p ∈ hardware, (actionsOf p false tree = .error .unknownInput ∧ L p = []) ∨
      ∃ normal hold, actionsOf p false tree = .ok normal ∧ actionsOf p true tree = .ok hold ∧ L p = normal ++ hold) :
    allActions tree hardware = .ok (hardware.flatMap L) := by
  induction hardware with
  | nil => rfl
  | cons p rest ih =>
    have ih := ih fun q hq => h q (List.mem_cons_of_mem _ hq)
    rcases h p List.mem_cons_self with ⟨h1, h2⟩ | ⟨n, hd, h1, h2, h3⟩
    · simp [allActions, h1, h2, ih]
    · simp [allActions, h1, h2, h3, ih]

/-- **C117** There is at most one warning for each display. -/
theorem C117_once (text : Node → String) (tree : Data) (hardware displays : List String) (msgs : List Message)
    (h : messages text tree hardware displays = .ok msgs) : (msgs.map Message.value).Nodup := by
  cases ha : allActions tree hardware with
  | error e => simp [messages, ha] at h
  | ok actions => exact (C117.check_iff actions displays [] msgs (C117.messages_eq ha h)).2.2 (by simp)

/-- **C117** The checks come to an end if and only if no action has one of the displays as an argument
without name. -/
theorem C117_ends (text : Node → String) (tree : Data) (hardware displays : List String) (actions : List ActionDef)
    (ha : allActions tree hardware = .ok actions) :
    (∃ msgs, messages text tree hardware displays = .ok msgs) ↔
      ∀ a ∈ actions, ∀ n, (none, ArgVal.code n) ∈ a.args → text n ∉ displays := by
  have hpos : ∀ d, (actions.any fun a => a.args.any (Lemmas.Checks.positional text d)) = true ↔
      ∃ a ∈ actions, ∃ n, (none, ArgVal.code n) ∈ a.args ∧ text n = d := by
    intro d
    simp only [List.any_eq_true]
    constructor
    · rintro ⟨a, hm, ⟨k, v⟩, he, hp⟩
      cases k <;> cases v <;> simp [Lemmas.Checks.positional] at hp
      exact ⟨a, hm, _, he, hp⟩
    · rintro ⟨a, hm, n, he, hp⟩
      exact ⟨a, hm, _, he, by simp [Lemmas.Checks.positional, hp]⟩
  have : ∀ (displays : List String) (msgs : List Message), (∃ r, check text actions displays msgs = .ok r) ↔
      ∀ d ∈ displays, ¬(actions.any fun a => a.args.any (Lemmas.Checks.positional text d)) = true := by
    intro displays
    induction displays with
    | nil => simp [check]
    | cons d ds ih =>
      intro msgs
      simp only [check, C117.usages_eq, List.mem_cons, forall_eq_or_imp]
      by_cases hp : (actions.any fun a => a.args.any (Lemmas.Checks.positional text d)) = true
      · simp [hp]
      · simp only [hp, if_false, Bool.false_eq_true, not_false_eq_true, true_and]
        exact ih _
  simp only [messages, ha]
  rw [this]
  constructor
  · intro h a hm n he hd
    exact h _ hd ((hpos _).2 ⟨a, hm, n, he, rfl⟩)
  · intro h d hd hp
    obtain ⟨a, hm, n, he, rfl⟩ := (hpos d).1 hp
    exact h a hm n he hd

/-! ### An example -/

namespace C117

/-- Source code of the expressions of the example. -/
def exText : Node → String
  | .name x => x
  | .other c => c
  | _ => "[...]"

def act (name display : String) (more : List (String × Node)) : Data :=
  .call name (.cons (some "display") (.code (.name display)) (more.foldr (fun e r => .cons (some e.1) (.code e.2) r) .nil)) none

def exInput (port : String) (actions : List Data) : Data :=
  .dict (.cons (some "assignment") (.code (.name port))
    (.cons (some "actions") (.list (actions.foldr (.cons none) .nil)) .nil)) none

/-- Two actions on different pages of one pager share a display, one without page uses it, too; another
display is used on different pages only. -/
def exTree : Data :=
  .list (.cons none (exInput "SWITCH_1"
      [act "A" "DISPLAY_1" [("id", .other "1"), ("enable_callback", .other "_pager.enable_callback")],
       act "B" "DISPLAY_1" [("id", .other "2"), ("enable_callback", .other "_pager.enable_callback")],
       act "C" "DISPLAY_2" [("id", .other "1"), ("enable_callback", .other "_pager.enable_callback")]])
    (.cons none (exInput "SWITCH_2"
      [act "D" "DISPLAY_1" [("preview_display", .name "DISPLAY_2")],
       act "E" "DISPLAY_2" [("id", .other "2"), ("enable_callback", .other "_pager.enable_callback")]]) .nil))

end C117

example : ((allActions C117.exTree ["SWITCH_1", "SWITCH_2", "SWITCH_3"]).toOption.map (·.map (·.name))) =
      some [some "A", some "B", some "C", some "D", some "E"] ∧
    messages C117.exText C117.exTree ["SWITCH_1", "SWITCH_2", "SWITCH_3"] ["DISPLAY_1", "DISPLAY_2", "DISPLAY_3"] =
      .ok [⟨"DISPLAY_1", [0, 3, 1]⟩] := by decide +kernel

example : ∃ normal hold, actionsOf "SWITCH_1" false (.list (.cons none (.dict (.cons (some "assignment") (.code (.name "SWITCH_1"))
      (.cons (some "actions") (.list (.cons none (C117.act "A" "DISPLAY_1" []) .nil))
      (.cons (some "actionsHold") (.list (.cons none (C117.act "B" "DISPLAY_1" []) .nil)) .nil))) none) .nil)) = .ok normal ∧
    actionsOf "SWITCH_1" true (.list (.cons none (.dict (.cons (some "assignment") (.code (.name "SWITCH_1"))
      (.cons (some "actions") (.list (.cons none (C117.act "A" "DISPLAY_1" []) .nil))
      (.cons (some "actionsHold") (.list (.cons none (C117.act "B" "DISPLAY_1" []) .nil)) .nil))) none) .nil)) = .ok hold ∧
    normal.map (·.name) = [some "A"] ∧ hold.map (·.name) = [some "B"] ∧
    actionsOf "SWITCH_2" false (.list .nil) = .error .unknownInput :=
  ⟨_, _, rfl, rfl, by decide +kernel, by decide +kernel, by decide +kernel⟩

/-! ### What is missing -/

/-- An action with a display as an argument without name ends the checks with an exception. -/
theorem C117_positional :
    messages C117.exText (.list (.cons none (C117.exInput "SWITCH_1"
      [.call "RIG_UP" (.cons none (.code (.name "DISPLAY_1")) .nil) none]) .nil)) ["SWITCH_1"] ["DISPLAY_1"] = .error .type := by
  decide +kernel

/-- An action which uses a display with two arguments warns about itself (once is not enough). -/
theorem C117_itself :
    messages C117.exText (.list (.cons none (C117.exInput "SWITCH_1"
      [C117.act "A" "DISPLAY_1" [("display_bank", .name "DISPLAY_1")]]) .nil)) ["SWITCH_1"] ["DISPLAY_1"] =
      .ok [⟨"DISPLAY_1", [0, 0]⟩] := by
  decide +kernel

end PySwitch.Props
