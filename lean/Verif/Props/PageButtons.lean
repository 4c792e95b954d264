import Verif.Model.PageButtons
import Verif.Spec.PageButtons
import Verif.Lemmas.Properties
/-!
C207: the buttons which assign an action to a page.
-/
namespace PySwitch.Props
open PySwitch.Properties (Text Page lit stripQuotes singleQuotes oneLine oneLine_id)
open PySwitch.PageButtons
open PySwitch.Spec.PageButtons

namespace C207

theorem single_id {t : Text} (h : '"' ∉ t) : singleQuotes t = t := by
  unfold singleQuotes
  conv => rhs; rw [← List.map_id t]
  apply List.map_congr_left
  intro c hc
  rw [if_neg fun (e : c = '"') => h (e ▸ hc)]; rfl

theorem shown_id {t : Text} (h : ∀ c ∈ t, c ≠ '"' ∧ c ≠ '\n' ∧ c ≠ '\r') : shown t = t := by
  unfold shown
  rw [single_id fun e => (h _ e).1 rfl]
  exact oneLine_id (fun e => (h _ e).2.1 rfl) (fun e => (h _ e).2.2 rfl)

theorem extract_append {n : Text} (h : ∀ c ∈ n, c ≠ '.') (t : Text) : extractPager (n ++ '.' :: t) = n := by
  unfold extractPager
  induction n with
  | nil => rfl
  | cons c cs ih =>
    have h1 : (c != '.') = true := by simpa using h c (by simp)
    rw [List.cons_append, List.takeWhile_cons, if_pos h1, ih fun c hc => h c (by simp [hc])]

theorem ends_eq : lit ".enable_callback" = '.' :: lit "enable_callback" := by decide +kernel

theorem ends_plain : ∀ c ∈ lit ".enable_callback", c ≠ '"' ∧ c ≠ '\n' ∧ c ≠ '\r' := by decide +kernel

theorem callback_of {n : Text} (h : n ≠ []) : callbackOf (some n) = n ++ lit ".enable_callback" := by
  cases n with
  | nil => exact absurd rfl h
  | cons c cs => rfl

theorem id_of {n : Text} (h : n ≠ []) : idOf n = n := by
  cases n with
  | nil => exact absurd rfl h
  | cons c cs => rfl

theorem update_fields (d : Dialog) : d.update.kind = d.kind ∧ d.update.callback = d.callback ∧ d.update.id = d.id ∧ d.update.own = d.own :=
  ⟨rfl, rfl, rfl, rfl⟩

/-- The dialog after a click, if there are both inputs. -/
theorem assign_eq (d : Dialog) (hc : d.callback ≠ none) (hi : d.id ≠ none) (name : Option Text) (page : Text) :
    d.assign name page =
      Dialog.update { Dialog.update { d with callback := some (shown (callbackOf name)) } with id := some (shown (idOf page)) } := by
  unfold Dialog.assign Dialog.setCallback
  cases hcb : d.callback with
  | none => exact absurd hcb hc
  | some _ =>
    simp only
    unfold Dialog.setId
    cases hid : d.id with
    | none => exact absurd hid hi
    | some _ => simp [Dialog.update]

/-- What holds for all dialogs: the marks are those of the inputs. -/
def Marks (d : Dialog) : Prop := ∀ b ∈ d.buttons, b.marked = d.selected b

/-- What holds after an update. -/
def Offers (d : Dialog) : Prop :=
  ∀ b ∈ d.buttons, d.kind ≠ .plain → b.marked = false → b.visible = (b.pager != d.own)

theorem update_marks (d : Dialog) : Marks d.update := by
  intro b hb
  simp only [Dialog.update, List.mem_map] at hb
  obtain ⟨a, _, rfl⟩ := hb
  rfl

theorem update_offers (d : Dialog) : Offers d.update := by
  intro b hb hk hm
  simp only [Dialog.update, List.mem_map] at hb
  obtain ⟨a, _, rfl⟩ := hb
  have hk' : d.kind ≠ .plain := hk
  have hm' : d.selected a = false := hm
  show (Dialog.show1 d a).visible = (a.pager != d.own)
  unfold Dialog.show1
  cases hkd : d.kind with
  | plain => exact absurd hkd hk'
  | pager => simp [hm']
  | proxy => simp [hm']

def Inputs (d : Dialog) : Prop := d.callback ≠ none ∧ d.id ≠ none

theorem step_inputs (d : Dialog) (h : Inputs d) (op : Op) : Inputs (d.step op) ∧ (d.step op).kind = d.kind := by
  cases op with
  | click n p => simp only [Dialog.step]; rw [assign_eq d h.1 h.2]; simp [Dialog.update, Inputs]
  | noPage => simp only [Dialog.step, Dialog.noPage]; rw [assign_eq d h.1 h.2]; simp [Dialog.update, Inputs]
  | typeCallback t =>
    simp only [Dialog.step]
    cases hc : d.callback with
    | none => exact absurd hc h.1
    | some _ => exact ⟨⟨by simp [Dialog.update], h.2⟩, rfl⟩
  | typeId t =>
    simp only [Dialog.step]
    cases hc : d.id with
    | none => exact absurd hc h.2
    | some _ => exact ⟨⟨h.1, by simp [Dialog.update]⟩, rfl⟩
  | own t =>
    simp only [Dialog.step]
    split
    · exact ⟨h, rfl⟩
    · exact ⟨h, rfl⟩

theorem run_inputs (d : Dialog) (h : Inputs d) (ops : List Op) : Inputs (d.run ops) ∧ (d.run ops).kind = d.kind := by
  induction ops generalizing d with
  | nil => exact ⟨h, rfl⟩
  | cons op ops ih =>
    have s := step_inputs d h op
    have r := ih (d.step op) s.1
    exact ⟨r.1, r.2.trans s.2⟩

theorem step_marks (d : Dialog) (h : Inputs d) (m : Marks d) (op : Op) : Marks (d.step op) := by
  cases op with
  | click n p => simp only [Dialog.step]; rw [assign_eq d h.1 h.2]; exact update_marks _
  | noPage => simp only [Dialog.step, Dialog.noPage]; rw [assign_eq d h.1 h.2]; exact update_marks _
  | typeCallback t =>
    simp only [Dialog.step]
    split
    · exact m
    · exact update_marks _
  | typeId t =>
    simp only [Dialog.step]
    split
    · exact m
    · exact update_marks _
  | own t =>
    simp only [Dialog.step]
    split
    · exact update_marks _
    · exact m

theorem run_marks (d : Dialog) (h : Inputs d) (m : Marks d) (ops : List Op) : Marks (d.run ops) := by
  induction ops generalizing d with
  | nil => exact m
  | cons op ops ih => exact ih (d.step op) (step_inputs d h op).1 (step_marks d h m op)

theorem step_offers (d : Dialog) (h : Inputs d) (op : Op) (ho : (∃ t, op = .own t) → d.kind = .proxy) : Offers (d.step op) := by
  cases op with
  | click n p => simp only [Dialog.step]; rw [assign_eq d h.1 h.2]; exact update_offers _
  | noPage => simp only [Dialog.step, Dialog.noPage]; rw [assign_eq d h.1 h.2]; exact update_offers _
  | typeCallback t =>
    simp only [Dialog.step]
    cases hc : d.callback with
    | none => exact absurd hc h.1
    | some _ => exact update_offers _
  | typeId t =>
    simp only [Dialog.step]
    cases hc : d.id with
    | none => exact absurd hc h.2
    | some _ => exact update_offers _
  | own t =>
    simp only [Dialog.step, ho ⟨t, rfl⟩]
    exact update_offers _

/-- What is left of a button by all steps. -/
def face (b : Button) : Option Text × Text × Text := (b.pager, b.page, b.text)

theorem update_face (d : Dialog) : d.update.buttons.map face = d.buttons.map face := by
  simp only [Dialog.update, List.map_map]
  rfl

theorem assign_face (d : Dialog) (n : Option Text) (p : Text) : (d.assign n p).buttons.map face = d.buttons.map face := by
  unfold Dialog.assign Dialog.setCallback Dialog.setId
  cases d.callback with
  | none => rfl
  | some _ =>
    simp only
    cases hi : (Dialog.update { d with callback := some (shown (callbackOf n)) }).id with
    | none => exact update_face _
    | some _ => exact (update_face _).trans (update_face _)

theorem step_face (d : Dialog) (op : Op) : (d.step op).buttons.map face = d.buttons.map face := by
  cases op with
  | click n p => exact assign_face d n p
  | noPage => exact assign_face d none []
  | typeCallback t => simp only [Dialog.step]; split <;> first | rfl | exact update_face _
  | typeId t => simp only [Dialog.step]; split <;> first | rfl | exact update_face _
  | own t => simp only [Dialog.step]; split <;> first | rfl | exact update_face _

theorem run_face (d : Dialog) (ops : List Op) : (d.run ops).buttons.map face = d.buttons.map face := by
  induction ops generalizing d with
  | nil => rfl
  | cons op ops ih => exact (ih (d.step op)).trans (step_face d op)

theorem update_plain (d : Dialog) (hk : d.kind = .plain) (h : ∀ b ∈ d.buttons, b.visible = true) : ∀ b ∈ d.update.buttons, b.visible = true := by
  intro b hb
  simp only [Dialog.update, List.mem_map] at hb
  obtain ⟨a, ha, rfl⟩ := hb
  simp only [Dialog.show1, hk]
  exact h a ha

end C207

/-- The dialog shows a button "No Page" and one button for each page of each pager, in the order of the code, whatever the user does. Without
pagers, it shows none. -/
theorem C207_buttons (kind : Kind) (callback id own : Option Text) (pagers : List Pager) (ops : List Op) :
    ((fresh kind callback id own pagers).run ops).buttons.map (fun b => (b.pager, b.page)) =
      match pagers with
      | [] => []
      | _ => (some "None".toList, "None".toList) :: pagers.flatMap fun q => q.pages.map fun p => (q.assign, p.id) := by
  have h := congrArg (List.map fun (x : Option Text × Text × Text) => (x.1, x.2.1))
    ((C207.run_face (fresh kind callback id own pagers) ops).trans (C207.update_face _))
  simp only [List.map_map] at h
  refine h.trans ?_
  cases pagers with
  | nil => rfl
  | cons q qs =>
    simp only [buttons, List.map_cons, List.map_flatMap, pagerButtons, List.map_map]
    rfl

/-- The text on a button is the name of the page, with the name of the pager before it if there are several pagers. -/
theorem C207_text (kind : Kind) (callback id own : Option Text) (pagers : List Pager) (ops : List Op) (b : Button)
    (hb : b ∈ ((fresh kind callback id own pagers).run ops).buttons) :
    (b.pager = some "None".toList ∧ b.page = "None".toList ∧ b.text = "No Page".toList) ∨
    ∃ q ∈ pagers, ∃ p ∈ q.pages, b.pager = q.assign ∧ b.page = p.id ∧ ∃ called, Called p.id p.text called ∧
      (pagers = [q] → b.text = called) ∧
      (2 ≤ pagers.length → ∀ c cs, q.assign = some (c :: cs) → b.text = c :: cs ++ '|' :: called) := by
  have h : C207.face b ∈ ((fresh kind callback id own pagers).run ops).buttons.map C207.face := List.mem_map_of_mem hb
  have hf : ((fresh kind callback id own pagers).run ops).buttons.map C207.face = (buttons pagers).map C207.face :=
    (C207.run_face _ ops).trans (C207.update_face _)
  rw [hf] at h
  obtain ⟨a, ha, e⟩ := List.mem_map.1 h
  simp only [C207.face, Prod.mk.injEq] at e
  obtain ⟨e1, e2, e3⟩ := e
  cases pagers with
  | nil => simp [buttons] at ha
  | cons q0 qs =>
    have ha' : a ∈ buttons (q0 :: qs) := ha
    simp only [buttons, List.mem_cons] at ha'
    rcases ha' with rfl | ha'
    · left; exact ⟨e1.symm, e2.symm, e3.symm⟩
    · right
      obtain ⟨q, hq, hqb⟩ := List.mem_flatMap.1 ha'
      obtain ⟨p, hp, rfl⟩ := List.mem_map.1 hqb
      refine ⟨q, hq, p, hp, e1.symm, e2.symm, pageText p, ?_, ?_, ?_⟩
      · unfold Called pageText
        cases ht : p.text with
        | none => right; exact ⟨by simp, rfl⟩
        | some t =>
          have hs : stripQuotes t = t.filter (fun c => decide (c ≠ '"' ∧ c ≠ '\'')) := by
            unfold stripQuotes
            congr 1
            funext c
            by_cases h1 : c = '"' <;> by_cases h2 : c = '\'' <;> simp [h1, h2]
          cases hf : stripQuotes t with
          | nil =>
            right
            refine ⟨fun t' ht' c hc => ?_, by simp [hf]⟩
            cases ht'
            have := hs.symm.trans hf
            rw [List.filter_eq_nil_iff] at this
            have := this c hc
            by_cases h1 : c = '"'
            · exact Or.inl h1
            · by_cases h2 : c = '\''
              · exact Or.inr h2
              · simp [h1, h2] at this
          | cons c cs =>
            left
            exact ⟨t, rfl, by simp only [hf]; rw [← hs, hf], by simp [hf]⟩
      · intro h1
        rw [← e3]
        have : (q0 :: qs).length = 1 := by rw [h1]; rfl
        simp only [buttonText, this, if_true]
      · intro h2 c cs hn
        rw [← e3]
        have : (q0 :: qs).length ≠ 1 := by omega
        simp only [buttonText, if_neg this, hn]

/-- Whatever the user did, exactly those buttons are marked which stand for the page the inputs name: the pager before the first dot of the
callback, and the id. -/
theorem C207_marks (kind : Kind) (callback id : Text) (own : Option Text) (pagers : List Pager) (ops : List Op) :
    ∃ c i, ((fresh kind (some callback) (some id) own pagers).run ops).callback = some c ∧
      ((fresh kind (some callback) (some id) own pagers).run ops).id = some i ∧
      ∀ b ∈ ((fresh kind (some callback) (some id) own pagers).run ops).buttons,
        (b.marked = true ↔ b.pager = some (c.takeWhile (· != '.')) ∧ b.page = i) := by
  have hin : C207.Inputs (fresh kind (some callback) (some id) own pagers) := ⟨by simp [fresh, Dialog.update], by simp [fresh, Dialog.update]⟩
  have hm := C207.run_marks _ hin (C207.update_marks _) ops
  have hi := (C207.run_inputs _ hin ops).1
  generalize (fresh kind (some callback) (some id) own pagers).run ops = d at hm hi
  obtain ⟨c, hc⟩ := Option.ne_none_iff_exists'.1 hi.1
  obtain ⟨i, hid⟩ := Option.ne_none_iff_exists'.1 hi.2
  refine ⟨c, i, hc, hid, fun b hb => ?_⟩
  rw [hm b hb]
  simp [Dialog.selected, hc, hid, extractPager]

/-- A click on the button of a page assigns the action to this page: the callback is that of its pager, the id is that of the page, and exactly
the buttons for this page are marked. -/
theorem C207_click_partial (d : Dialog) (hc : d.callback ≠ none) (hi : d.id ≠ none) (name page : Text) (hn : PlainName name) (hp : PlainId page) :
    (d.step (.click (some name) page)).callback = some (name ++ ".enable_callback".toList) ∧
    (d.step (.click (some name) page)).id = some page ∧
    ∀ b ∈ (d.step (.click (some name) page)).buttons, (b.marked = true ↔ b.pager = some name ∧ b.page = page) := by
  simp only [Dialog.step]
  rw [C207.assign_eq d hc hi, C207.callback_of hn.1, C207.id_of hp.1, C207.shown_id hp.2]
  have hs : shown (name ++ lit ".enable_callback") = name ++ lit ".enable_callback" := by
    apply C207.shown_id
    intro c hc
    rcases List.mem_append.1 hc with h | h
    · exact (hn.2 c h).2
    · exact C207.ends_plain c h
  rw [hs]
  refine ⟨rfl, rfl, fun b hb => ?_⟩
  rw [C207.update_marks _ b hb]
  simp only [Dialog.selected, Dialog.update, Option.map_some, C207.ends_eq, C207.extract_append fun c hc => (hn.2 c hc).1]
  simp

/-- A click on "No Page" takes the action off its page, and exactly the button "No Page" is marked. -/
theorem C207_noPage (d : Dialog) (hc : d.callback ≠ none) (hi : d.id ≠ none) :
    (d.step .noPage).callback = some "None".toList ∧ (d.step .noPage).id = some "None".toList ∧
    ∀ b ∈ (d.step .noPage).buttons, (b.marked = true ↔ b.pager = some "None".toList ∧ b.page = "None".toList) := by
  simp only [Dialog.step, Dialog.noPage]
  rw [C207.assign_eq d hc hi]
  have h1 : shown (callbackOf none) = "None".toList := by decide +kernel
  have h2 : shown (idOf []) = "None".toList := by decide +kernel
  have h3 : extractPager "None".toList = "None".toList := by decide +kernel
  rw [h1, h2]
  refine ⟨rfl, rfl, fun b hb => ?_⟩
  rw [C207.update_marks _ b hb]
  simp only [Dialog.selected, Dialog.update, Option.map_some, h3]
  simp

/-- The button on which the user clicked stays shown, if it is not for an own page, or if the action was on this page before. -/
theorem C207_stays (kind : Kind) (callback id : Text) (own : Option Text) (pagers : List Pager) (ops : List Op) (k : Nat) (b : Button)
    (name : Text) (hn : PlainName name) (hp : PlainId b.page) (hname : b.pager = some name)
    (hb : ((fresh kind (some callback) (some id) own pagers).run ops).buttons[k]? = some b) (hv : b.visible = true)
    (ho : kind = .plain ∨ b.marked = true ∨ b.pager ≠ ((fresh kind (some callback) (some id) own pagers).run ops).own) :
    ((fresh kind (some callback) (some id) own pagers).run (ops ++ [.click b.pager b.page])).buttons[k]? =
      some { b with marked := true, visible := true } := by
  have hin : C207.Inputs (fresh kind (some callback) (some id) own pagers) := ⟨by simp [fresh, Dialog.update], by simp [fresh, Dialog.update]⟩
  have hm := C207.run_marks _ hin (C207.update_marks _) ops
  have hi := (C207.run_inputs _ hin ops).1
  have hk : ((fresh kind (some callback) (some id) own pagers).run ops).kind = kind := (C207.run_inputs _ hin ops).2
  rw [show (fresh kind (some callback) (some id) own pagers).run (ops ++ [.click b.pager b.page]) =
    ((fresh kind (some callback) (some id) own pagers).run ops).step (.click b.pager b.page) by simp [Dialog.run, List.foldl_append]]
  generalize (fresh kind (some callback) (some id) own pagers).run ops = d at *
  have hmb := hm b (List.mem_of_getElem? hb)
  simp only [Dialog.step]
  rw [C207.assign_eq d hi.1 hi.2, hname, C207.callback_of hn.1, C207.id_of hp.1, C207.shown_id hp.2]
  have hs : shown (name ++ lit ".enable_callback") = name ++ lit ".enable_callback" := by
    apply C207.shown_id
    intro c hc
    rcases List.mem_append.1 hc with h | h
    · exact (hn.2 c h).2
    · exact C207.ends_plain c h
  rw [hs]
  simp only [Dialog.update, List.getElem?_map, hb, Option.map_some, Option.some.injEq]
  obtain ⟨bp, bq, bt, bm, bv⟩ := b
  simp only at hname hv hmb ho
  subst hname hv
  have he : extractPager (name ++ lit ".enable_callback") = name := by
    rw [C207.ends_eq]; exact C207.extract_append (fun c hc => (hn.2 c hc).1) _
  have hsel : ∀ m, d.selected ⟨some name, bq, bt, m, true⟩ = true → some bq = d.id := by
    intro m h
    simp only [Dialog.selected, Bool.and_eq_true, beq_iff_eq] at h
    exact h.2
  cases hkd : d.kind with
  | plain => simp [Dialog.show1, Dialog.selected, he]
  | pager =>
    rcases ho with h | h | h
    · rw [hkd] at hk; rw [h] at hk; exact absurd hk (by decide)
    · have := hsel _ (hmb.symm.trans h)
      simp [Dialog.show1, Dialog.selected, he, ← this]
    · simp [Dialog.show1, Dialog.selected, he, h]
  | proxy =>
    rcases ho with h | h | h
    · rw [hkd] at hk; rw [h] at hk; exact absurd hk (by decide)
    · have := hsel _ (hmb.symm.trans h)
      simp [Dialog.show1, Dialog.selected, he, ← this]
    · simp [Dialog.show1, Dialog.selected, he, h]

/-- A pager is not offered its own pages, and a proxy not those of its pager, unless the action is on the page already; all other pages are
offered. This holds for proxies after all histories, and for pagers after all histories which do not end with a new name for the pager. -/
theorem C207_own_partial (kind : Kind) (hk : kind ≠ .plain) (callback id : Text) (own : Option Text) (pagers : List Pager) (ops : List Op)
    (hl : kind = .proxy ∨ ∀ t, ops.getLast? ≠ some (.own t)) :
    ∀ b ∈ ((fresh kind (some callback) (some id) own pagers).run ops).buttons, b.marked = false →
      (b.visible = true ↔ b.pager ≠ ((fresh kind (some callback) (some id) own pagers).run ops).own) := by
  have hin : C207.Inputs (fresh kind (some callback) (some id) own pagers) := ⟨by simp [fresh, Dialog.update], by simp [fresh, Dialog.update]⟩
  have hoff : C207.Offers ((fresh kind (some callback) (some id) own pagers).run ops) := by
    rcases List.eq_nil_or_concat ops with rfl | ⟨l, op, rfl⟩
    · exact C207.update_offers _
    · have hr := C207.run_inputs _ hin l
      rw [show (fresh kind (some callback) (some id) own pagers).run (l.concat op) =
        ((fresh kind (some callback) (some id) own pagers).run l).step op by simp [Dialog.run, List.foldl_append]]
      refine C207.step_offers _ hr.1 op ?_
      rintro ⟨t, rfl⟩
      rcases hl with h | h
      · exact hr.2.trans h
      · exact absurd (by simp) (h t)
  have hkind := (C207.run_inputs _ hin ops).2
  intro b hb hm
  rw [hoff b hb (by rw [hkind]; exact hk) hm]
  simp

/-- All other actions are offered all pages, whatever the user did. -/
theorem C207_plain (callback id own : Option Text) (pagers : List Pager) (ops : List Op) :
    ∀ b ∈ ((fresh .plain callback id own pagers).run ops).buttons, b.visible = true := by
  have h0 : (fresh .plain callback id own pagers).kind = .plain ∧ ∀ b ∈ (fresh .plain callback id own pagers).buttons, b.visible = true := by
    refine ⟨rfl, C207.update_plain _ rfl ?_⟩
    intro b hb
    cases pagers with
    | nil => simp [buttons] at hb
    | cons q qs =>
      have hb' : b ∈ buttons (q :: qs) := hb
      simp only [buttons, List.mem_cons, List.mem_flatMap, pagerButtons, List.mem_map] at hb'
      rcases hb' with rfl | ⟨_, _, _, _, rfl⟩ <;> rfl
  generalize fresh .plain callback id own pagers = d at h0
  induction ops generalizing d with
  | nil => exact h0.2
  | cons op ops ih =>
    refine ih (d.step op) ?_
    obtain ⟨hk, hv⟩ := h0
    have ha : ∀ n p, (d.assign n p).kind = .plain ∧ ∀ b ∈ (d.assign n p).buttons, b.visible = true := by
      intro n p
      unfold Dialog.assign Dialog.setCallback Dialog.setId
      cases d.callback with
      | none => exact ⟨hk, hv⟩
      | some _ =>
        simp only
        have h1 := C207.update_plain { d with callback := some (shown (callbackOf n)) } hk hv
        cases hi : (Dialog.update { d with callback := some (shown (callbackOf n)) }).id with
        | none => exact ⟨hk, h1⟩
        | some _ => exact ⟨hk, C207.update_plain _ hk h1⟩
    cases op with
    | click n p => exact ha n p
    | noPage => exact ha none []
    | typeCallback t =>
      simp only [Dialog.step]
      split
      · exact ⟨hk, hv⟩
      · exact ⟨hk, C207.update_plain _ hk hv⟩
    | typeId t =>
      simp only [Dialog.step]
      split
      · exact ⟨hk, hv⟩
      · exact ⟨hk, C207.update_plain _ hk hv⟩
    | own t => simp only [Dialog.step, hk]; exact ⟨trivial, hv⟩

/-- Two pagers with pages. -/
def C207.two : List Pager :=
  [⟨some "_pager".toList, [⟨"1".toList, none, some "'Rig'".toList⟩, ⟨"2".toList, none, none⟩]⟩, ⟨some "_pager2".toList, [⟨"1".toList, none, none⟩]⟩]

-- The texts of the buttons, for two pagers and for one.
example : (buttons C207.two).map (·.text) = ["No Page", "_pager|Rig", "_pager|2", "_pager2|1"].map String.toList ∧
    (buttons (C207.two.take 1)).map (·.text) = ["No Page", "Rig", "2"].map String.toList := by decide +kernel

-- A pager `_pager2` which is put on a page of `_pager`: this is marked, and its own page is not shown.
example : ((fresh .pager (some "None".toList) (some "None".toList) (some "_pager2".toList) C207.two).run
      [.click (some "_pager".toList) "2".toList]).buttons.map (fun b => (b.marked, b.visible)) =
    [(false, true), (false, true), (true, true), (false, false)] := by decide +kernel

example : PlainName "_pager".toList ∧ PlainId "'A'".toList := by unfold PlainName PlainId; decide +kernel

/-- Most actions have `False` as default for the id: before a click, no button is marked, also not "No Page". -/
theorem C207_fresh_witness :
    (fresh .plain (some "None".toList) (some "False".toList) none C207.two).buttons.any (·.marked) = false := by decide +kernel

/-- An id in double quotes is written with single quotes into the input, so the button is not marked after the click. -/
theorem C207_quotes_witness :
    ((fresh .plain (some "None".toList) (some "None".toList) none [⟨some "_pager".toList, [⟨"\"A\"".toList, none, none⟩]⟩]).run
      [.click (some "_pager".toList) "\"A\"".toList]).buttons.any (·.marked) = false := by decide +kernel

/-- The pages of a pager without a name cannot be assigned: the click takes the action off its page, but leaves the id. -/
theorem C207_unnamed_witness :
    let d := (fresh .plain (some "None".toList) (some "None".toList) none [⟨none, [⟨"1".toList, none, none⟩]⟩]).run [.click none "1".toList]
    d.callback = some "None".toList ∧ d.id = some "1".toList ∧ d.buttons.any (·.marked) = false := by decide +kernel

/-- A new name for a pager does not update the buttons: it is offered its own pages then, and when one of them is clicked, the marked button is
hidden. -/
theorem C207_rename_witness :
    let d := (fresh .pager (some "None".toList) (some "None".toList) (some "_pager3".toList) C207.two).run [.own "_pager2".toList]
    d.own = some "_pager2".toList ∧ d.buttons.map (·.visible) = [true, true, true, true] ∧
    (d.step (.click (some "_pager2".toList) "1".toList)).buttons.map (fun b => (b.marked, b.visible)) =
      [(false, true), (false, true), (false, true), (true, false)] := by decide +kernel

end PySwitch.Props
