import Verif.Spec.FrontendLists

/-!
The lists of actions in the editor.
-/

namespace PySwitch.FrontendLists
open Spec

variable {α : Type}

theorem put_set (c : Config α) (n : Nat) (h : Bool) (l : List α) : put c n h l = c.set n h l := rfl

/-! ### What is shown -/

theorem acts_zip (l : List (Bool × α)) (n k : Nat) (h : Bool) :
    acts ((l.zipIdx k).map fun x => (⟨(n, x.2), x.1.1, x.1.2⟩ : Item α)) h = (l.filter fun x => x.1 == h).map Prod.snd := by
  induction l generalizing k with
  | nil => rfl
  | cons x l ih =>
    unfold acts at ih ⊢
    simp only [List.zipIdx_cons, List.map_cons, List.filter_cons]
    cases hx : (x.1 == h)
    · simpa using ih (k + 1)
    · simpa using ih (k + 1)

theorem acts_render (code : Nat → Bool → List α) (n : Nat) (h : Bool) : acts (render code n) h = code n h := by
  unfold render
  rw [acts_zip]
  unfold entries
  have key : ∀ (b : Bool) (l : List α), ((l.map fun a => (b, a)).filter fun x => x.1 == h).map Prod.snd = if b = h then l else [] := by
    intro b l
    induction l with
    | nil => simp
    | cons a l ih =>
      simp only [List.map_cons, List.filter_cons]
      by_cases hb : b = h
      · simp only [hb, beq_self_eq_true, if_true, List.map_cons, List.cons.injEq, true_and]
        simpa [hb] using ih
      · have : (b == h) = false := by simpa using hb
        simp only [this, if_neg hb]
        simp [hb]
  rw [List.filter_append, List.map_append, key, key]
  cases h <;> simp

theorem render_acts (code : Nat → Bool → List α) (n : Nat) : (render code n).map Item.act = code n false ++ code n true := by
  unfold render
  rw [List.map_map]
  have : ∀ (l : List (Bool × α)) (k : Nat), ((l.zipIdx k).map fun x => x.1.2) = l.map Prod.snd := by
    intro l
    induction l with
    | nil => intro k; rfl
    | cons x l ih =>
      intro k
      rw [List.zipIdx_cons, List.map_cons, List.map_cons, ih]
  refine (this (entries code n) 0).trans ?_
  simp [entries, Function.comp_def]

theorem render_ids (code : Nat → Bool → List α) (n : Nat) : ((render code n).map Item.id).Nodup := by
  unfold render
  have : ∀ (l : List (Bool × α)) (k : Nat),
      (((l.zipIdx k).map fun x => (⟨(n, x.2), x.1.1, x.1.2⟩ : Item α)).map Item.id).Nodup ∧
      ∀ i ∈ ((l.zipIdx k).map fun x => (⟨(n, x.2), x.1.1, x.1.2⟩ : Item α)).map Item.id, k ≤ i.2 := by
    intro l
    induction l with
    | nil => simp
    | cons x l ih =>
      intro k
      obtain ⟨h1, h2⟩ := ih (k + 1)
      simp only [List.zipIdx_cons, List.map_cons, List.nodup_cons, List.mem_cons]
      refine ⟨⟨fun hm => ?_, h1⟩, ?_⟩
      · have := h2 _ hm
        simp only at this
        omega
      · rintro i (rfl | hm)
        · simp
        · have := h2 _ hm
          omega
  exact (this _ 0).1

/-! ### Items by their position -/

theorem replace_at (l : List (Item α)) (hn : (l.map Item.id).Nodup) (i : Nat) (x : Item α) (hx : l[i]? = some x) (a : α) :
    (l.map fun y => if y.id = x.id then a else y.act) = (l.map Item.act).set i a := by
  induction l generalizing i with
  | nil => simp at hx
  | cons y l ih =>
    simp only [List.map_cons, List.nodup_cons] at hn
    cases i with
    | zero =>
      simp only [List.getElem?_cons_zero, Option.some.injEq] at hx
      subst hx
      simp only [List.map_cons, if_true, List.set_cons_zero, List.cons.injEq, true_and]
      refine List.map_congr_left fun z hz => if_neg fun e => hn.1 ?_
      rw [← e]
      exact List.mem_map_of_mem hz
    | succ i =>
      simp only [List.getElem?_cons_succ] at hx
      have hne : y.id ≠ x.id := fun e => hn.1 (by rw [e]; exact List.mem_map_of_mem (List.mem_of_getElem? hx))
      simp only [List.map_cons, if_neg hne, List.set_cons_succ]
      rw [ih hn.2 i hx]

theorem remove_at (l : List (Item α)) (hn : (l.map Item.id).Nodup) (i : Nat) (x : Item α) (hx : l[i]? = some x) :
    (l.filter fun y => y.id ≠ x.id).map Item.act = (l.map Item.act).eraseIdx i := by
  induction l generalizing i with
  | nil => simp at hx
  | cons y l ih =>
    simp only [List.map_cons, List.nodup_cons] at hn
    cases i with
    | zero =>
      simp only [List.getElem?_cons_zero, Option.some.injEq] at hx
      subst hx
      rw [List.filter_cons, if_neg (by simp)]
      simp only [List.map_cons, List.eraseIdx_cons_zero]
      congr 1
      rw [List.filter_eq_self]
      intro z hz
      simp only [ne_eq, decide_eq_true_eq]
      exact fun e => hn.1 (by rw [← e]; exact List.mem_map_of_mem hz)
    | succ i =>
      simp only [List.getElem?_cons_succ] at hx
      have hne : y.id ≠ x.id := fun e => hn.1 (by rw [e]; exact List.mem_map_of_mem (List.mem_of_getElem? hx))
      rw [List.filter_cons, if_pos (by simpa using hne)]
      simp only [List.map_cons, List.eraseIdx_cons_succ]
      rw [ih hn.2 i hx]

/-! ### The tree after everything which is left to be done -/

/-- All timers have set their lists. -/
def afterTimers (tree : Config α) (ts : List (Timer α)) : Config α := ts.foldl (fun c t => c.set t.input t.hold t.acts) tree

/-- Each action belongs to an input of the configuration. -/
def Owned (known : Nat → Bool) (c : Config α) : Prop := ∀ n h, c n h ≠ [] → known n = true

/-- The states of a history in which all steps come in time: nothing is left, or there are timers and restarts, or something has been dragged. -/
inductive Good (s : State α) (c : Config α) : Prop
  | rest (ht : s.timers = []) (hr : s.restarts = []) (hq : s.queue = []) (hv : s.valid = true) (hc : s.code = c) (htr : s.tree = c)
      (hg : s.grid = render c) (ho : Owned s.known c)
  | busy (hq : s.queue = []) (hg : ∀ t ∈ s.timers, t.gen = s.gen) (hf : afterTimers s.tree s.timers = c) (hp : s.timers ≠ [] ∨ s.restarts ≠ [])
      (ho : Owned s.known s.tree)
  | dragged (d : Config α) (n m : Nat) (l k : List (Item α)) (ht : s.timers = []) (hr : s.restarts = [s.gen]) (hq : s.queue = schedule [n] m)
      (hv : s.valid = true) (htr : s.tree = d) (hg : s.grid = fun j => if j = n then l else if j = m then k else render d j)
      (ho : Owned s.known d) (hn : s.known n = true) (hc : c = d.apply (.drag n m l k))

theorem good_start (code : Config α) (known : Nat → Bool) (h : Owned known code) : Good (start code known) code :=
  .rest rfl rfl rfl rfl rfl rfl rfl h

theorem Good.idle {s : State α} {c : Config α} (h : Good s c) (hi : Idle s) : s.code = c ∧ s.grid = render c := by
  cases h with
  | rest ht hr hq hv hc htr hg ho => exact ⟨hc, hg⟩
  | busy hq hg hf hp ho => exact absurd hi.1 (hp.elim (fun x => x) fun x => absurd hi.2 x)
  | dragged d n m l k ht hr => exact absurd hi.2 (by rw [hr]; simp)

theorem Owned.set {known : Nat → Bool} {c : Config α} (h : Owned known c) (n : Nat) (b : Bool) (l : List α) (hn : known n = true) :
    Owned known (c.set n b l) := by
  intro j b' hj
  unfold Config.set at hj
  split at hj
  · rename_i e; rw [e.1]; exact hn
  · exact h j b' hj

theorem items_acts (s : State α) (c : Config α) (hg : s.grid = render c) (n : Nat) (h : Bool) : (s.items n h).map Item.act = c n h := by
  have := acts_render c n h
  unfold acts at this
  unfold State.items
  rw [hg, this]

theorem items_ids (s : State α) (c : Config α) (hg : s.grid = render c) (n : Nat) (h : Bool) : ((s.items n h).map Item.id).Nodup := by
  unfold State.items
  rw [hg]
  exact List.Sublist.nodup (List.Sublist.map _ List.filter_sublist) (render_ids c n)

theorem set_self (c : Config α) (n : Nat) (h : Bool) : c.set n h (c n h) = c := by
  funext j b
  unfold Config.set
  split
  · rename_i e; rw [e.1, e.2]
  · rfl

theorem request_valid (s : State α) (hv : s.valid = true) (n : Nat) (h : Bool) (x : List (Item α)) (acts : List α) :
    s.request n h x acts = some { s with timers := s.timers ++ [⟨s.gen, n, h, acts⟩] } := by
  unfold State.request
  rw [if_neg (by simp [hv])]

theorem items_length (s : State α) (c : Config α) (hg : s.grid = render c) (n : Nat) (h : Bool) : (s.items n h).length = (c n h).length := by
  rw [← items_acts s c hg n h, List.length_map]

/-- One timer has been started while nothing was left. -/
theorem good_request (s : State α) (c : Config α) (ht : s.timers = []) (hq : s.queue = []) (htr : s.tree = c) (ho : Owned s.known c)
    (n : Nat) (h : Bool) (acts : List α) :
    Good { s with timers := s.timers ++ [⟨s.gen, n, h, acts⟩] } (c.set n h acts) := by
  refine .busy hq ?_ ?_ (.inl (by simp)) (by simpa [htr] using ho)
  · intro t hm
    simp only [ht, List.nil_append, List.mem_singleton] at hm
    rw [hm]
  · simp [ht, htr, afterTimers]

theorem good_user (s : State α) (c : Config α) (hs : Good s c) (hi : Idle s) (o : Op α) (ha : Arranges s (.user o)) :
    Good (s.user o) (c.apply o) := by
  cases hs with
  | busy hq hg hf hp ho => exact absurd hi.1 (hp.elim (fun x => x) fun x => absurd hi.2 x)
  | dragged d n m l k ht hr => exact absurd hi.2 (by rw [hr]; simp)
  | rest ht hr hq hv hc htr hg ho =>
    have hrest : Good s c := .rest ht hr hq hv hc htr hg ho
    cases o with
    | add n h a =>
      simp only [State.user, State.add, request_valid s hv, Option.getD_some, Config.apply]
      rw [items_acts s c hg]
      exact good_request s c ht hq htr ho n h _
    | replace n h i a =>
      simp only [State.user, Config.apply]
      cases hx : (s.items n h)[i]? with
      | none =>
        have hlen := List.getElem?_eq_none_iff.1 hx
        rw [items_length s c hg] at hlen
        rw [List.set_eq_of_length_le hlen, set_self]
        exact hrest
      | some x =>
        simp only [State.replace, request_valid s hv, Option.getD_some]
        rw [replace_at _ (items_ids s c hg n h) i x hx, items_acts s c hg]
        exact good_request s c ht hq htr ho n h _
    | remove n h i =>
      simp only [State.user, Config.apply]
      cases hx : (s.items n h)[i]? with
      | none =>
        have hlen := List.getElem?_eq_none_iff.1 hx
        rw [items_length s c hg] at hlen
        rw [List.eraseIdx_of_length_le hlen, set_self]
        exact hrest
      | some x =>
        simp only [State.remove, request_valid s hv, Option.getD_some]
        rw [remove_at _ (items_ids s c hg n h) i x hx, items_acts s c hg]
        exact good_request s c ht hq htr ho n h _
    | change n h i a =>
      simp only [State.user, Config.apply]
      cases hx : (s.items n h)[i]? with
      | none =>
        have hlen := List.getElem?_eq_none_iff.1 hx
        rw [items_length s c hg] at hlen
        rw [if_neg (by omega)]
        exact hrest
      | some x =>
        have hlt : i < (c n h).length := by
          rw [← items_length s c hg]
          exact (List.getElem?_eq_some_iff.1 hx).1
        rw [if_pos hlt]
        simp only [State.remove, request_valid s hv]
        rw [remove_at _ (items_ids s c hg n h) i x hx, items_acts s c hg]
        unfold State.add
        rw [request_valid { s with timers := s.timers ++ [⟨s.gen, n, h, (c n h).eraseIdx i⟩] } hv]
        simp only [Option.getD_some]
        refine .busy hq ?_ ?_ (.inl (by simp)) (by simpa [htr] using ho)
        · intro t hm
          simp only [ht, List.nil_append, List.mem_append, List.mem_singleton] at hm
          rcases hm with hm | hm <;> rw [hm]
        · have : ∀ t : List (Timer α), (State.items { s with timers := t } n (!h)).map Item.act = c n (!h) :=
            fun t => items_acts { s with timers := t } c hg n (!h)
          simp only [this]
          simp [ht, htr, afterTimers]
    | drag n m l k =>
      refine .dragged c n m l k ht (by simp [State.user, hr]) ?_ hv htr (by simp only [State.user, hg]) ho ?_ rfl
      · simp only [State.user, hq]
        rfl
      · have hne := ha.1
        rw [hg] at hne
        cases h1 : c n false with
        | cons x xs => exact ho n false (by simp [h1])
        | nil =>
          cases h2 : c n true with
          | cons x xs => exact ho n true (by simp [h2])
          | nil => exact absurd (by simp [render, entries, h1, h2]) hne

theorem setActions_fields (s : State α) (n : Nat) (h : Bool) (acts : List α) :
    (s.setActions n h acts).tree = Config.set s.tree n h acts ∧ (s.setActions n h acts).known n = true ∧
    (∀ j, s.known j = true → (s.setActions n h acts).known j = true) ∧ (s.setActions n h acts).grid = s.grid ∧
    (s.setActions n h acts).gen = s.gen ∧ (s.setActions n h acts).timers = s.timers ∧ (s.setActions n h acts).queue = s.queue ∧
    (s.setActions n h acts).restarts = s.restarts ∧ (s.known n = true → (s.setActions n h acts).valid = s.valid) := by
  unfold State.setActions
  by_cases hk : s.known n = true
  · rw [if_pos hk]
    exact ⟨rfl, hk, fun _ h => h, rfl, rfl, rfl, rfl, rfl, fun _ => rfl⟩
  · rw [if_neg hk]
    refine ⟨rfl, by simp, fun j hj => ?_, rfl, rfl, rfl, rfl, rfl, fun h => absurd h hk⟩
    simp only
    split
    · rfl
    · exact hj

theorem Owned.setActions {s : State α} (h : Owned s.known s.tree) (n : Nat) (b : Bool) (l : List α) :
    Owned (s.setActions n b l).known (s.setActions n b l).tree := by
  obtain ⟨h1, h2, h3, -⟩ := setActions_fields s n b l
  rw [h1]
  exact Owned.set (fun j b' hj => h3 j (h j b' hj)) n b l h2

theorem good_fire (s : State α) (c : Config α) (hs : Good s c) : Good s.fire c := by
  cases ht : s.timers with
  | nil =>
    have : s.fire = s := by simp only [State.fire, ht]
    rw [this]
    exact hs
  | cons t rest =>
    cases hs with
    | rest ht' => exact absurd ht' (by rw [ht]; simp)
    | dragged d n m l k ht' => exact absurd ht' (by rw [ht]; simp)
    | busy hq hg hf hp ho =>
      have hgen := hg t (by rw [ht]; exact List.mem_cons_self)
      simp only [State.fire, ht, if_pos hgen]
      obtain ⟨f1, f2, f3, f4, f5, f6, f7, f8, f9⟩ := setActions_fields { s with timers := rest } t.input t.hold t.acts
      refine .busy (f7.trans hq) ?_ ?_ (.inr (by simp)) (Owned.setActions (s := { s with timers := rest }) ho _ _ _)
      · intro t' hm
        simp only [f6] at hm
        simp only [f5]
        exact hg t' (by rw [ht]; exact List.mem_cons_of_mem _ hm)
      · simp only [f1, f6]
        rw [ht] at hf
        exact hf

/-- One input is set from what is shown. -/
def setBoth (s : State α) (n : Nat) : State α :=
  (s.setActions n false ((s.items n false).map Item.act)).setActions n true ((s.items n true).map Item.act)

theorem process_cons (s : State α) (n : Nat) (rest : List Nat) (h : s.valid = true) :
    s.process (n :: rest) = (setBoth s n).process rest := by
  simp only [State.process]
  rw [if_neg (by simp [h])]
  rfl

theorem setBoth_fields (s : State α) (n : Nat) :
    (setBoth s n).tree = (fun j h => if j = n then acts (s.grid n) h else s.tree j h) ∧ (setBoth s n).known n = true ∧
    (∀ j, s.known j = true → (setBoth s n).known j = true) ∧ (setBoth s n).grid = s.grid ∧
    (setBoth s n).gen = s.gen ∧ (setBoth s n).timers = s.timers ∧
    (setBoth s n).restarts = s.restarts ∧ (s.known n = true → (setBoth s n).valid = s.valid) := by
  unfold setBoth
  obtain ⟨f1, f2, f3, f4, f5, f6, f7, f8, f9⟩ := setActions_fields s n false ((s.items n false).map Item.act)
  obtain ⟨g1, g2, g3, g4, g5, g6, g7, g8, g9⟩ :=
    setActions_fields (s.setActions n false ((s.items n false).map Item.act)) n true ((s.items n true).map Item.act)
  refine ⟨?_, g2, fun j hj => g3 j (f3 j hj), g4.trans f4, g5.trans f5, g6.trans f6, g8.trans f8, fun h => (g9 f2).trans (f9 h)⟩
  rw [g1, f1]
  funext j h
  unfold Config.set
  by_cases hj : j = n
  · subst hj
    cases h <;> simp [State.items, acts]
  · simp [hj]

theorem Owned.setBoth {s : State α} (h : Owned s.known s.tree) (n : Nat) : Owned (setBoth s n).known (setBoth s n).tree := by
  unfold FrontendLists.setBoth
  exact Owned.setActions (Owned.setActions h _ _ _) _ _ _

theorem good_restart (s : State α) (c : Config α) (hs : Good s c) (hi : s.timers = []) : Good s.restart c := by
  cases hs with
  | rest ht hr hq hv hc htr hg ho =>
    have : s.restart = s := by simp only [State.restart, hr]
    rw [this]
    exact .rest ht hr hq hv hc htr hg ho
  | busy hq hg hf hp ho =>
    cases hr : s.restarts with
    | nil => exact absurd hi (hp.elim (fun x => x) fun x => absurd hr x)
    | cons g rest =>
      have htree : s.tree = c := by rw [← hf, hi]; rfl
      have key : s.restart = { s with restarts := rest, code := s.tree, grid := render s.tree, valid := true, gen := s.gen + 1, queue := [] } := by
        simp only [State.restart, hr, hq, State.process]
        split <;> simp
      rw [key]
      cases rest with
      | nil => exact .rest hi rfl rfl rfl htree htree (by simp only [htree]) (by simpa only [htree] using ho)
      | cons g' r => exact .busy rfl (by simp [hi]) (by simpa [hi] using hf) (.inr (by simp)) ho
  | dragged d n m l k ht hr hq hv htr hg ho hn hc =>
    let u : State α := { s with restarts := [] }
    have key : ∀ w : State α, u.process s.queue = ({ w with queue := [] }, true) →
        s.restart = { w with code := w.tree, grid := render w.tree, valid := true, gen := w.gen + 1, queue := [] } := by
      intro w hw
      simp only [State.restart, hr, if_true]
      show (if (u.process s.queue).2 = true then _ else _) = _
      rw [hw]
      rfl
    have fin : ∀ w : State α, u.process s.queue = ({ w with queue := [] }, true) → w.tree = c → w.timers = [] → w.restarts = [] →
        Owned w.known w.tree → Good s.restart c := by
      intro w hw h1 h2 h3 h4
      rw [key w hw]
      exact .rest h2 h3 rfl rfl h1 h1 (by simp only [h1]) (by simpa only [h1] using h4)
    have hou : Owned u.known u.tree := by
      show Owned s.known s.tree
      rw [htr]
      exact ho
    obtain ⟨f1, f2, f3, f4, f5, f6, f7, f8⟩ := setBoth_fields u n
    have hgn : s.grid n = l := by simp [hg]
    by_cases hm : m = n
    · have hq' : s.queue = [n] := by rw [hq]; simp [schedule, hm]
      refine fin (setBoth u n) (by rw [hq', process_cons u n [] hv]; rfl) ?_ (f6.trans ht) f7 (Owned.setBoth hou n)
      rw [f1, hc]
      funext j h
      show (if j = n then acts (s.grid n) h else s.tree j h) = _
      rw [hgn, htr]
      simp only [Config.apply, hm]
      by_cases hj : j = n <;> simp [hj]
    · have hq' : s.queue = [n, m] := by rw [hq]; simp [schedule, hm]
      have hv2 : (setBoth u n).valid = true := (f8 hn).trans hv
      obtain ⟨g1, g2, g3, g4, g5, g6, g7, g8⟩ := setBoth_fields (setBoth u n) m
      have hgm : s.grid m = k := by simp [hg, hm]
      refine fin (setBoth (setBoth u n) m) (by rw [hq', process_cons u n [m] hv, process_cons _ m [] hv2]; rfl) ?_ (g6.trans (f6.trans ht))
        (g7.trans f7) (Owned.setBoth (Owned.setBoth hou n) m)
      rw [g1, f1, f4, hc]
      funext j h
      show (if j = m then acts (s.grid m) h else if j = n then acts (s.grid n) h else s.tree j h) = _
      rw [hgn, hgm, htr]
      simp only [Config.apply]
      by_cases hj : j = n
      · subst hj
        simp [Ne.symm hm]
      · by_cases hj2 : j = m <;> simp [hj, hj2, hm]

theorem good_run (es : List (Ev α)) : ∀ (s : State α) (c : Config α), Good s c → Orderly s es → Good (s.run es) ((ops es).foldl Config.apply c) := by
  induction es with
  | nil => exact fun s c h _ => h
  | cons e es ih =>
    intro s c h ho
    obtain ⟨h1, h2, h3⟩ := ho
    cases e with
    | user o => exact ih _ _ (good_user s c h h1 o h2) h3
    | fire => exact ih _ _ (good_fire s c h) h3
    | restart => exact ih _ _ (good_restart s c h h1) h3

/-! ### Everything is done at last -/

theorem orderly_append (a b : List (Ev α)) : ∀ s : State α, Orderly s (a ++ b) ↔ Orderly s a ∧ Orderly (s.run a) b := by
  induction a with
  | nil => intro s; simp [Orderly, State.run]
  | cons e a ih =>
    intro s
    simp only [List.cons_append, Orderly, ih]
    simp only [State.run, List.foldl_cons, and_assoc]

theorem fire_length (s : State α) : s.fire.timers.length = s.timers.length - 1 := by
  unfold State.fire
  cases ht : s.timers with
  | nil => simp [ht]
  | cons t rest =>
    simp only
    split
    · have := (setActions_fields { s with timers := rest } t.input t.hold t.acts).2.2.2.2.2.1
      simp only [this]
      simp
    · simp

theorem fire_all (k : Nat) : ∀ s : State α, s.timers.length = k → (s.run (List.replicate k .fire)).timers = [] ∧ Orderly s (List.replicate k .fire) := by
  induction k with
  | zero => exact fun s h => ⟨List.length_eq_zero_iff.1 h, trivial⟩
  | succ k ih =>
    intro s h
    have := ih s.fire (by rw [fire_length, h]; rfl)
    rw [List.replicate_succ]
    exact ⟨this.1, trivial, trivial, this.2⟩

theorem process_keeps (q : List Nat) : ∀ s : State α, (s.process q).1.timers = s.timers ∧ (s.process q).1.restarts = s.restarts := by
  induction q with
  | nil => exact fun s => ⟨rfl, rfl⟩
  | cons n q ih =>
    intro s
    by_cases h : s.valid = false ∧ s.grid n ≠ []
    · simp only [State.process, if_pos h]
      exact ⟨trivial, trivial⟩
    · have : s.process (n :: q) = (setBoth s n).process q := by
        simp only [State.process, if_neg h]
        rfl
      rw [this]
      obtain ⟨-, -, -, -, -, f6, f7, -⟩ := setBoth_fields s n
      exact ⟨(ih _).1.trans f6, (ih _).2.trans f7⟩

theorem restart_keeps (s : State α) : s.restart.timers = s.timers ∧ s.restart.restarts = s.restarts.tail := by
  unfold State.restart
  cases hr : s.restarts with
  | nil => simp [hr]
  | cons g rest =>
    simp only [List.tail_cons]
    have hp := process_keeps s.queue { s with restarts := rest }
    by_cases hg : g = s.gen
    · simp only [if_pos hg]
      split
      · exact hp
      · exact hp
    · simp only [if_neg hg]
      exact ⟨rfl, rfl⟩

theorem restart_all (k : Nat) : ∀ s : State α, s.timers = [] → s.restarts.length = k →
    Idle (s.run (List.replicate k .restart)) ∧ Orderly s (List.replicate k .restart) := by
  induction k with
  | zero => exact fun s h1 h2 => ⟨⟨h1, List.length_eq_zero_iff.1 h2⟩, trivial⟩
  | succ k ih =>
    intro s h1 h2
    have hk := restart_keeps s
    have := ih s.restart (hk.1.trans h1) (by rw [hk.2, List.length_tail, h2]; rfl)
    rw [List.replicate_succ]
    exact ⟨this.1, h1, trivial, this.2⟩

/-! ### Inputs which nothing is done with -/

/-- The input is not touched by what is left to be done. -/
structure Quiet (s : State α) (c : Config α) (j : Nat) : Prop where
  code : s.code j = c j
  tree : s.tree j = c j
  timers : ∀ t ∈ s.timers, t.input ≠ j
  queue : j ∉ s.queue

theorem Quiet.setActions {s : State α} {c : Config α} {j : Nat} (h : Quiet s c j) (n : Nat) (hn : n ≠ j) (b : Bool) (l : List α) :
    Quiet (s.setActions n b l) c j := by
  have ht : put s.tree n b l j = c j := by
    funext b'
    unfold put
    rw [if_neg (fun e => hn e.1.symm), h.tree]
  unfold State.setActions
  split
  · exact ⟨h.code, ht, h.timers, h.queue⟩
  · exact ⟨h.tree, ht, h.timers, h.queue⟩

theorem Quiet.request {s : State α} {c : Config α} {j : Nat} (h : Quiet s c j) (n : Nat) (hn : n ≠ j) (b : Bool) (x : List (Item α)) (l : List α)
    (s' : State α) (hs : s.request n b x l = some s') : Quiet s' c j := by
  unfold State.request at hs
  split at hs
  · simp at hs
  · simp only [Option.some.injEq] at hs
    subst hs
    refine ⟨h.code, h.tree, fun t hm => ?_, h.queue⟩
    simp only [List.mem_append, List.mem_singleton] at hm
    rcases hm with hm | hm
    · exact h.timers t hm
    · rw [hm]; exact hn

theorem Quiet.getD {s : State α} {c : Config α} {j : Nat} (h : Quiet s c j) (n : Nat) (hn : n ≠ j) (b : Bool) (x : List (Item α)) (l : List α) :
    Quiet ((s.request n b x l).getD s) c j := by
  cases hs : s.request n b x l with
  | none => exact h
  | some s' => exact h.request n hn b x l s' hs

theorem schedule_mem (q : List Nat) (n j : Nat) (h : j ∈ schedule q n) : j ∈ q ∨ j = n := by
  unfold schedule at h
  split at h
  · exact .inl h
  · simpa using h

theorem Quiet.user {s : State α} {c : Config α} {j : Nat} (h : Quiet s c j) (o : Op α) (hj : j ∉ inputs o) : Quiet (s.user o) c j := by
  cases o with
  | add n b a =>
    have hn : n ≠ j := fun e => hj (by simp [inputs, e])
    exact h.getD n hn _ _ _
  | replace n b i a =>
    have hn : n ≠ j := fun e => hj (by simp [inputs, e])
    simp only [State.user]
    split
    · exact h
    · exact h.getD n hn _ _ _
  | remove n b i =>
    have hn : n ≠ j := fun e => hj (by simp [inputs, e])
    simp only [State.user]
    split
    · exact h
    · exact h.getD n hn _ _ _
  | change n b i a =>
    have hn : n ≠ j := fun e => hj (by simp [inputs, e])
    simp only [State.user]
    split
    · exact h
    · split
      · exact h
      · rename_i s' hs
        exact (h.request n hn _ _ _ s' hs).getD n hn _ _ _
  | drag n m l k =>
    refine ⟨h.code, h.tree, h.timers, fun hm => ?_⟩
    rcases schedule_mem _ _ _ hm with hm | hm
    · rcases schedule_mem _ _ _ hm with hm | hm
      · exact h.queue hm
      · exact hj (by simp [inputs, hm])
    · exact hj (by simp [inputs, hm])

theorem Quiet.process {c : Config α} {j : Nat} (q : List Nat) : ∀ s : State α, Quiet s c j → j ∉ q → Quiet (s.process q).1 c j := by
  induction q with
  | nil => exact fun s h _ => ⟨h.code, h.tree, h.timers, by simp [State.process]⟩
  | cons n q ih =>
    intro s h hj
    have hn : n ≠ j := fun e => hj (by simp [e])
    have hjq : j ∉ q := fun e => hj (List.mem_cons_of_mem _ e)
    by_cases hc : s.valid = false ∧ s.grid n ≠ []
    · simp only [State.process, if_pos hc]
      exact ⟨h.code, h.tree, h.timers, hjq⟩
    · have : s.process (n :: q) = (setBoth s n).process q := by
        simp only [State.process, if_neg hc]
        rfl
      rw [this]
      exact ih _ ((h.setActions n hn _ _).setActions n hn _ _) hjq

theorem Quiet.step {s : State α} {c : Config α} {j : Nat} (h : Quiet s c j) (e : Ev α) (hj : ∀ o, e = .user o → j ∉ inputs o) :
    Quiet (s.step e) c j := by
  cases e with
  | user o => exact h.user o (hj o rfl)
  | fire =>
    show Quiet s.fire c j
    unfold State.fire
    cases ht : s.timers with
    | nil => exact h
    | cons t rest =>
      have hsub : ∀ t' ∈ rest, t'.input ≠ j := fun t' hm => h.timers t' (by rw [ht]; exact List.mem_cons_of_mem _ hm)
      have h' : Quiet { s with timers := rest } c j := ⟨h.code, h.tree, hsub, h.queue⟩
      simp only
      split
      · have := h'.setActions t.input (h.timers t (by rw [ht]; exact List.mem_cons_self)) t.hold t.acts
        exact ⟨this.code, this.tree, this.timers, this.queue⟩
      · exact h'
  | restart =>
    show Quiet s.restart c j
    unfold State.restart
    cases hr : s.restarts with
    | nil => exact h
    | cons g rest =>
      have h' : Quiet { s with restarts := rest } c j := ⟨h.code, h.tree, h.timers, h.queue⟩
      have hp := Quiet.process s.queue _ h' h.queue
      by_cases hg : g = s.gen
      · simp only [if_pos hg]
        split
        · exact ⟨hp.tree, hp.tree, hp.timers, by simp⟩
        · exact hp
      · simp only [if_neg hg, if_true]
        exact ⟨h.tree, h.tree, h.timers, by simp⟩

theorem quiet_run (c : Config α) (j : Nat) (es : List (Ev α)) : ∀ s : State α, Quiet s c j → (∀ o ∈ ops es, j ∉ inputs o) → Quiet (s.run es) c j := by
  induction es with
  | nil => exact fun s h _ => h
  | cons e es ih =>
    intro s h ho
    cases e with
    | user o => exact ih _ (h.step (.user o) fun o' e => by cases e; exact ho o (by simp [ops])) fun o' hm => ho o' (by simp [ops, hm])
    | fire => exact ih _ (h.step .fire fun o' e => by simp at e) ho
    | restart => exact ih _ (h.step .restart fun o' e => by simp at e) ho

/-! ### Dragging -/

theorem acts_perm (l : List (Item α)) : (acts l false ++ acts l true).Perm (l.map Item.act) := by
  unfold acts
  rw [← List.map_append]
  refine List.Perm.map _ ?_
  have := List.filter_append_perm (fun i : Item α => i.hold == false) l
  have e : (l.filter fun i : Item α => i.hold == true) = l.filter fun i => !(i.hold == false) := by
    congr 1
    funext i
    cases i.hold <;> rfl
  rw [e]
  exact this

end PySwitch.FrontendLists
