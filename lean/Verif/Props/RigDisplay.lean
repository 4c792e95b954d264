import Verif.Spec.RigDisplay
import Verif.Props.Rigs
/-
Properties C83 to C86: displays of rig and bank switches.
-/
namespace PySwitch.Props
open PySwitch PySwitch.Rigs PySwitch.RigDisplay PySwitch.Spec

namespace C83

/-- The rigs and banks in the state of an action exist. -/
def SelOk : Act → SelState → Prop
  | .rigSelect c _, s => (∀ r, s.rigOff = some r → isSlot r) ∧ (∀ b, s.bankOff = some b → isBank b) ∧
      s.rigOff.isSome = (c.rigOffAuto || c.rigOff.isSome) ∧ s.bankOff.isSome = (c.bankOffAuto || c.bankOff.isSome) ∧
      c.init.isSome = true
  | _, _ => True

/-- The cache describes what is shown. -/
def CacheOk : Act → ActState → Prop
  | .bankSelect c k, x => ∀ v cur, x.cache = some (v, cur) →
      x.label = some (bankSelectLabel c k v cur) ∧ x.led = some (bankSelectLed c k v cur)
  | _, _ => True

/-- The action shows what it has to. -/
def Right : Act → Env → Int → ActState → Prop
  | .rigSelect c k, e, v, x => x.sel.currentValue = some v ∧ x.label = some (rigSelectLabel c k x.sel e.shared) ∧
      (e.shared.preselectedBank = none → x.led = some (rigSelectLed c k x.sel e)) ∧
      x.led.map (·.color) = some (rigSelectColor c k x.sel e.shared v)
  | .bankSelect c k, e, v, x => ∃ cur, x.label = some (bankSelectLabel c k v cur) ∧ x.led = some (bankSelectLed c k v cur) ∧
      (¬ (c.preselect = true ∧ e.shared.preselectedBank = some (c.bank - 1)) → cur = decide (Int.tdiv v 5 = c.bank - 1))
  | .rigChange c k, _, _, x => x.label = some (rigChangeLabel c k x.sel) ∧ x.led = some (rigChangeLed c k x.sel)
  | .bankChange _ _, _, _, _ => True

structure Pre (a : Act) (v : Int) (x : ActState) : Prop where
  value : x.sel.value = some v
  sel : SelOk a x.sel
  sent : ∀ r, x.sel.sent = some r → 0 ≤ r
  cache : x.enabled = true → CacheOk a x

structure Good (a : Act) (e : Env) (v : Int) (x : ActState) : Prop extends Pre a v x where
  right : x.enabled = true → Right a e v x

theorem tdiv5' {v : Int} (h : 0 ≤ v) : Int.tdiv v 5 = v / 5 := Int.tdiv_eq_ediv_of_nonneg h

theorem updateDisplays_value (c : RigSelect) (st : SelState) : (c.updateDisplays st).value = st.value := by
  unfold RigSelect.updateDisplays
  cases h : st.value with
  | none => simp only; exact h
  | some v =>
    simp only
    split
    · rfl
    · exact h

theorem updateDisplays_sent (c : RigSelect) (st : SelState) : (c.updateDisplays st).sent = st.sent := by
  unfold RigSelect.updateDisplays
  split
  · rfl
  · split <;> rfl

theorem updateDisplays_current (c : RigSelect) (st : SelState) (v : Int) (h : st.value = some v) :
    (c.updateDisplays st).currentValue = some v := by
  unfold RigSelect.updateDisplays
  rw [h]
  simp only
  split
  · rfl
  · rename_i h'; simp at h'; exact h'.symm

theorem updateDisplays_ok (c : RigSelect) (k : Look) (st : SelState) (v : Int) (hv : Valid v) (h : st.value = some v)
    (hs : SelOk (.rigSelect c k) st) : SelOk (.rigSelect c k) (c.updateDisplays st) := by
  obtain ⟨h1, h2, h3, h4, h5⟩ := hs
  obtain ⟨v0, v1⟩ := hv
  unfold RigSelect.updateDisplays
  rw [h]
  simp only
  split
  · refine ⟨?_, ?_, ?_, ?_, h5⟩
    · intro r hr
      simp only at hr
      split at hr
      · split at hr
        · simp only [Option.some.injEq] at hr
          unfold isSlot; omega
        · exact h1 r hr
      · exact h1 r hr
    · intro b hb
      simp only at hb
      rw [tdiv5' v0] at hb
      split at hb
      · split at hb
        · simp only [Option.some.injEq] at hb
          unfold isBank; omega
        · exact h2 b hb
      · exact h2 b hb
    · simp only
      split
      · split
        · rename_i ha; simp [ha.2.1]
        · exact h3
      · exact h3
    · simp only
      split
      · split
        · rename_i ha; simp [ha.1]
        · exact h4
      · exact h4
  · exact ⟨h1, h2, h3, h4, h5⟩

theorem show_led (x : ActState) (l : Label) (d : Led) (h : x.enabled = true) : (x.show l d).led = some d := by
  unfold ActState.show; simp only; rw [if_pos h]

theorem draw_pre (a : Act) (n : Nat) (e : Env) (v : Int) (hv : Valid v) (x : ActState) (h1 : x.sel.value = some v)
    (h2 : SelOk a x.sel) : (a.draw n e x).sel.value = some v ∧ SelOk a (a.draw n e x).sel ∧ (a.draw n e x).sel.sent = x.sel.sent ∧
      (a.draw n e x).enabled = x.enabled := by
  cases a with
  | rigSelect c k =>
    exact ⟨(updateDisplays_value c x.sel).trans h1, updateDisplays_ok c k x.sel v hv h1 h2,
      updateDisplays_sent c x.sel, rfl⟩
  | bankSelect c k =>
    unfold Act.draw
    simp only [h1]
    split
    · exact ⟨h1, trivial, rfl, rfl⟩
    · exact ⟨h1, trivial, rfl, rfl⟩
  | bankChange c k => exact ⟨h1, trivial, rfl, rfl⟩
  | rigChange c k => exact ⟨h1, trivial, rfl, rfl⟩

theorem display_good (a : Act) (n : Nat) (e : Env) (v : Int) (hv : Valid v) (x : ActState) (h : Pre a v x) :
    Good a e v (a.display n e x) := by
  unfold Act.display
  split
  · rename_i hen
    obtain ⟨p1, p2, p3, -⟩ := draw_pre a n e v hv x h.value h.sel
    have p3' := fun r (hr : (a.draw n e x).sel.sent = some r) => h.sent r (p3 ▸ hr)
    cases a with
    | rigSelect c k =>
      refine ⟨⟨p1, p2, p3', fun _ => trivial⟩, fun _ => ⟨updateDisplays_current c x.sel v h.value, rfl, fun hn => ?_, ?_⟩⟩
      · exact show_led _ _ _ hen
      · have hl := show_led { x with sel := c.updateDisplays x.sel } (rigSelectLabel c k (c.updateDisplays x.sel) e.shared)
            (rigSelectLed c k (c.updateDisplays x.sel) e) hen
        refine (congrArg (Option.map (·.color)) hl).trans ?_
        unfold rigSelectLed
        rw [updateDisplays_value, h.value]
        rfl
    | bankSelect c k =>
      have hc := h.cache hen
      have hcur : ¬ (c.preselect = true ∧ e.shared.preselectedBank = some (c.bank - 1)) →
          bankIsCurrent c e v = decide (Int.tdiv v 5 = c.bank - 1) := by
        intro hn; unfold bankIsCurrent; rw [if_neg hn]
      have hd : ((Act.bankSelect c k).draw n e x).label = some (bankSelectLabel c k v (bankIsCurrent c e v)) ∧
          ((Act.bankSelect c k).draw n e x).led = some (bankSelectLed c k v (bankIsCurrent c e v)) ∧
          ((Act.bankSelect c k).draw n e x).cache = some (v, bankIsCurrent c e v) := by
        unfold Act.draw
        simp only [h.value]
        split
        · rename_i hc'
          exact ⟨(hc _ _ hc').1, (hc _ _ hc').2, hc'⟩
        · exact ⟨rfl, show_led _ _ _ hen, rfl⟩
      refine ⟨⟨p1, p2, p3', fun _ => ?_⟩, fun _ => ⟨_, hd.1, hd.2.1, hcur⟩⟩
      intro w cur hw
      rw [hd.2.2] at hw
      simp only [Option.some.injEq, Prod.mk.injEq] at hw
      rw [← hw.1, ← hw.2]
      exact ⟨hd.1, hd.2.1⟩
    | bankChange c k => exact ⟨⟨p1, p2, p3', fun _ => trivial⟩, fun _ => trivial⟩
    | rigChange c k => exact ⟨⟨p1, p2, p3', fun _ => trivial⟩, fun _ => ⟨rfl, show_led _ _ _ hen⟩⟩
  · rename_i hen
    exact ⟨h, fun h' => absurd h' hen⟩

/-- What is drawn for a rig select switch depends on the preselected bank only. -/
theorem label_congr (c : RigSelect) (k : Look) (st : SelState) (sh sh' : Shared) (h : sh'.preselectedBank = sh.preselectedBank) :
    rigSelectLabel c k st sh' = rigSelectLabel c k st sh := by
  unfold rigSelectLabel rigSelectColor rigSelectTarget
  rw [h]

theorem led_congr (c : RigSelect) (k : Look) (st : SelState) (e e' : Env) (h : e.shared.preselectedBank = none)
    (h' : e'.shared.preselectedBank = none) : rigSelectLed c k st e' = rigSelectLed c k st e := by
  unfold rigSelectLed rigSelectColor
  rw [h, h']

theorem label_sent (c : RigSelect) (k : Look) (st : SelState) (sh : Shared) (s : Option Int) :
    rigSelectLabel c k { st with sent := s } sh = rigSelectLabel c k st sh := rfl

theorem led_sent (c : RigSelect) (k : Look) (st : SelState) (e : Env) (s : Option Int) :
    rigSelectLed c k { st with sent := s } e = rigSelectLed c k st e := rfl

theorem good_congr (a : Act) (e e' : Env) (v : Int) (x : ActState) (h : Good a e v x)
    (he : e'.shared.preselectedBank = e.shared.preselectedBank) : Good a e' v x := by
  refine ⟨h.toPre, fun hen => ?_⟩
  have hr := h.right hen
  cases a with
  | rigSelect c k =>
    obtain ⟨r1, r2, r3, r4⟩ := hr
    refine ⟨r1, by rw [label_congr c k x.sel e.shared e'.shared he]; exact r2, fun hn => ?_, by
      unfold rigSelectColor at r4 ⊢; rw [he]; exact r4⟩
    rw [led_congr c k x.sel e e' (he ▸ hn) hn]
    exact r3 (he ▸ hn)
  | bankSelect c k =>
    obtain ⟨cur, r1, r2, r3⟩ := hr
    exact ⟨cur, r1, r2, by rw [he]; exact r3⟩
  | bankChange c k => trivial
  | rigChange c k => exact hr

theorem good_sent (a : Act) (e : Env) (v : Int) (x : ActState) (h : Good a e v x) (s : Option Int) (hs : ∀ r, s = some r → 0 ≤ r) :
    Good a e v { x with sel := { x.sel with sent := s } } := by
  cases a with
  | rigSelect c k => exact ⟨⟨h.value, h.sel, hs, fun _ => trivial⟩, fun hen => h.right hen⟩
  | bankSelect c k => exact ⟨⟨h.value, trivial, hs, h.cache⟩, fun hen => h.right hen⟩
  | bankChange c k => exact ⟨⟨h.value, trivial, hs, fun _ => trivial⟩, fun _ => trivial⟩
  | rigChange c k => exact ⟨⟨h.value, trivial, hs, fun _ => trivial⟩, fun hen => h.right hen⟩

/-- The actions and the device belong together. -/
structure Inv (as : List Act) (s : Sys) (d : Device) : Prop where
  len : s.acts.length = as.length
  valid : Valid d.current
  sync : d.preselected.getD (bankOf d.current) = s.env.shared.preselectedBank.getD (bankOf d.current)
  pending : s.env.shared.preselectedBank = none ∨ d.preselected = s.env.shared.preselectedBank
  nopre : (∀ a ∈ as, a.preselect = false) → d.preselected = none
  pre : ∀ p, d.preselected = some p → 0 ≤ p ∧ p < 125
  good : ∀ (n : Nat) a x, as[n]? = some a → s.acts[n]? = some x → Good a s.env d.current x

theorem drawAll_get (as : List Act) (e : Env) (ss : List ActState) (n : Nat) (a : Act) (ha : as[n]? = some a) :
    (drawAll as e ss)[n]? = (ss[n]?).map (a.display n e) := by
  unfold drawAll
  rw [List.getElem?_mapIdx]
  cases ss[n]? with
  | none => rfl
  | some x => simp only [Option.map_some, ha]

theorem drawAll_len (as : List Act) (e : Env) (ss : List ActState) : (drawAll as e ss).length = ss.length := by
  unfold drawAll; rw [List.length_mapIdx]

/-- After the report of a rig, or drawing all displays, everything is right. -/
theorem drawAll_good (as : List Act) (e : Env) (v : Int) (hv : Valid v) (ss : List ActState)
    (h : ∀ (n : Nat) a x, as[n]? = some a → ss[n]? = some x → Pre a v x) :
    ∀ (n : Nat) a x, as[n]? = some a → (drawAll as e ss)[n]? = some x → Good a e v x := by
  intro n a x ha hx
  rw [drawAll_get as e ss n a ha] at hx
  obtain ⟨y, hy, rfl⟩ := Option.map_eq_some_iff.1 hx
  exact display_good a n e v hv y (h n a y ha hy)

theorem receive_good (as : List Act) (e : Env) (v : Int) (hv : Valid v) (ss : List ActState)
    (h : ∀ (n : Nat) a x, as[n]? = some a → ss[n]? = some x → SelOk a x.sel ∧ (∀ r, x.sel.sent = some r → 0 ≤ r) ∧ (x.enabled = true → CacheOk a x)) :
    ∀ (n : Nat) a x, as[n]? = some a → (receive as e v ss)[n]? = some x → Good a e v x := by
  unfold receive
  refine drawAll_good as e v hv _ ?_
  intro n a x ha hx
  rw [List.getElem?_map] at hx
  obtain ⟨y, hy, rfl⟩ := Option.map_eq_some_iff.1 hx
  obtain ⟨h1, h2, h3⟩ := h n a y ha hy
  refine ⟨rfl, ?_, h2, ?_⟩
  · cases a <;> exact h1
  · cases a <;> exact h3

theorem receive_len (as : List Act) (e : Env) (v : Int) (ss : List ActState) : (receive as e v ss).length = ss.length := by
  unfold receive; rw [drawAll_len, List.length_map]

theorem Good.weak {a : Act} {e : Env} {v : Int} {x : ActState} (h : Good a e v x) :
    SelOk a x.sel ∧ (∀ r, x.sel.sent = some r → 0 ≤ r) ∧ (x.enabled = true → CacheOk a x) := ⟨h.sel, h.sent, h.cache⟩

/-- Drawing one action, enabled or not. -/
theorem draw_good (a : Act) (n : Nat) (e : Env) (v : Int) (hv : Valid v) (x : ActState) (h : Pre a v x) :
    Good a e v (a.draw n e x) := by
  cases hen : x.enabled with
  | true =>
    have := display_good a n e v hv x h
    unfold Act.display at this
    rwa [if_pos hen] at this
  | false =>
    obtain ⟨p1, p2, p3, p4⟩ := draw_pre a n e v hv x h.value h.sel
    rw [hen] at p4
    exact ⟨⟨p1, p2, fun r hr => h.sent r (p3 ▸ hr), fun h' => by rw [p4] at h'; cases h'⟩, fun h' => by rw [p4] at h'; cases h'⟩

/-- Changing one action. -/
theorem set_good (as : List Act) (e : Env) (v : Int) (ss : List ActState) (n : Nat) (a : Act) (y : ActState) (ha : as[n]? = some a)
    (hy : Good a e v y) (h : ∀ (n : Nat) a x, as[n]? = some a → ss[n]? = some x → Good a e v x) :
    ∀ (m : Nat) a x, as[m]? = some a → (ss.set n y)[m]? = some x → Good a e v x := by
  intro m b x hb hx
  rw [List.getElem?_set] at hx
  split at hx
  · rename_i hm
    subst hm
    split at hx
    · rw [ha] at hb
      simp only [Option.some.injEq] at hb hx
      rw [← hb, ← hx]; exact hy
    · cases hx
  · exact h m b x hb hx

theorem reset_good (a : Act) (n : Nat) (e : Env) (v : Int) (hv : Valid v) (x : ActState) (h : Good a e v x) :
    Good a e v (a.reset n e x) := by
  cases a with
  | rigSelect c k => exact display_good _ n e v hv x h.toPre
  | bankChange c k => exact display_good _ n e v hv x h.toPre
  | rigChange c k => exact h
  | bankSelect c k => exact ⟨⟨h.value, trivial, h.sent, fun _ w cur hw => by cases hw⟩, fun hen => h.right hen⟩

theorem enable_good (a : Act) (n : Nat) (e : Env) (v : Int) (hv : Valid v) (x : ActState) (h : Good a e v x) (b : Bool) :
    Good a e v (a.display n e (a.reset n e { x with enabled := b })) := by
  apply display_good a n e v hv
  have hp : ∀ h' : (∀ c k, a ≠ .bankSelect c k), Pre a v { x with enabled := b } := fun h' =>
    ⟨h.value, h.sel, h.sent, fun _ => by cases a <;> first | trivial | exact absurd rfl (h' _ _)⟩
  cases a with
  | rigSelect c k => exact (display_good _ n e v hv _ (hp (by simp))).toPre
  | bankChange c k => exact (display_good _ n e v hv _ (hp (by simp))).toPre
  | rigChange c k => exact hp (by simp)
  | bankSelect c k => exact ⟨h.value, trivial, h.sent, fun _ w cur hw => by cases hw⟩

/-- The invariant after the device has loaded a rig and reported it. -/
theorem inv_report (as : List Act) (s : Sys) (d : Device) (hl : s.acts.length = as.length) (hv : Valid d.current)
    (hd : d.preselected = none) (hs : s.env.shared.preselectedBank = none)
    (h : ∀ (n : Nat) a x, as[n]? = some a → s.acts[n]? = some x →
      SelOk a x.sel ∧ (∀ r, x.sel.sent = some r → 0 ≤ r) ∧ (x.enabled = true → CacheOk a x)) :
    Inv as (step as s (.value d.current)).1 d := by
  refine ⟨?_, hv, ?_, .inl hs, fun _ => hd, by simp [hd], ?_⟩
  · show (receive as s.env d.current s.acts).length = _
    rw [receive_len, hl]
  · show _ = s.env.shared.preselectedBank.getD _
    rw [hd, hs]
  · exact receive_good as s.env d.current hv s.acts h

theorem mapM_get {α β : Type} (f : α → Option β) (as : List α) (ss : List β) (h : as.mapM f = some ss) :
    ss.length = as.length ∧ ∀ (n : Nat) a x, as[n]? = some a → ss[n]? = some x → f a = some x := by
  induction as generalizing ss with
  | nil =>
    simp only [List.mapM_nil, Option.pure_def, Option.some.injEq] at h
    subst h
    exact ⟨rfl, fun n a x ha => by simp at ha⟩
  | cons a as ih =>
    rw [List.mapM_cons] at h
    simp only [Option.pure_def, Option.bind_eq_bind, Option.bind_eq_some_iff, Option.some.injEq] at h
    obtain ⟨b, hb, bs, hbs, rfl⟩ := h
    obtain ⟨h1, h2⟩ := ih bs hbs
    refine ⟨by simp [h1], ?_⟩
    intro n x y hx hy
    cases n with
    | zero => simp only [List.getElem?_cons_zero, Option.some.injEq] at hx hy; rw [← hx, ← hy]; exact hb
    | succ n => simp only [List.getElem?_cons_succ] at hx hy; exact h2 n x y hx hy

theorem init_weak (a : Act) (n : Nat) (e : Env) (x : ActState) (h : a.init = some x) (hex : Configured a) :
    SelOk a (a.display n e x).sel ∧ (∀ r, (a.display n e x).sel.sent = some r → 0 ≤ r) ∧
    ((a.display n e x).enabled = true → CacheOk a (a.display n e x)) := by
  cases a with
  | rigSelect c k =>
    unfold Act.init at h
    obtain ⟨sel, hsel, rfl⟩ := Option.map_eq_some_iff.1 h
    have hinit : c.init.isSome = true := by rw [hsel]; rfl
    unfold RigSelect.init at hsel
    simp only at hsel
    split at hsel
    · cases hsel
    · simp only [Option.some.injEq] at hsel
      subst hsel
      obtain ⟨-, h2, -, h4⟩ := hex
      refine ⟨⟨?_, ?_, ?_, ?_, hinit⟩, ?_, fun _ => trivial⟩
      · intro r hr
        have hr' : (if c.rigOffAuto then some 1 else c.rigOff) = some r := hr
        split at hr'
        · simp only [Option.some.injEq] at hr'; subst hr'; exact ⟨by omega, by omega⟩
        · exact h2 r hr'
      · intro b hb
        have hb' : (if c.bankOffAuto then some 1 else c.bankOff) = some b := hb
        split at hb'
        · simp only [Option.some.injEq] at hb'; subst hb'; exact ⟨by omega, by omega⟩
        · exact h4 b hb'
      · show Option.isSome (if c.rigOffAuto then some 1 else c.rigOff) = _
        cases c.rigOffAuto <;> simp
      · show Option.isSome (if c.bankOffAuto then some 1 else c.bankOff) = _
        cases c.bankOffAuto <;> simp
      · intro r hr; cases hr
  | bankSelect c k =>
    unfold Act.init at h
    simp only [Option.some.injEq] at h
    subst h
    exact ⟨trivial, fun r hr => (by cases hr), fun _ v cur hv => (by cases hv)⟩
  | bankChange c k =>
    unfold Act.init at h
    simp only [Option.some.injEq] at h
    subst h
    exact ⟨trivial, fun r hr => (by cases hr), fun _ => trivial⟩
  | rigChange c k =>
    unfold Act.init at h
    simp only [Option.some.injEq] at h
    subst h
    exact ⟨trivial, fun r hr => (by cases hr), fun _ => trivial⟩

/-- The start. -/
theorem inv_start (as : List Act) (s0 : Sys) (h0 : Sys.init as = some s0) (hex : ∀ a ∈ as, Configured a) (id : Int) (hid : Valid id) :
    Inv as (step as s0 (.value id)).1 { current := id } := by
  unfold Sys.init at h0
  obtain ⟨ss, hss, rfl⟩ := Option.map_eq_some_iff.1 h0
  obtain ⟨h1, h2⟩ := mapM_get _ as ss hss
  refine inv_report as _ { current := id } ?_ hid rfl rfl ?_
  · simp only [drawAll_len, h1]
  · intro n a x ha hx
    simp only at hx
    rw [drawAll_get as _ ss n a ha] at hx
    obtain ⟨y, hy, rfl⟩ := Option.map_eq_some_iff.1 hx
    exact init_weak a n _ y (h2 n a y ha hy) (hex a (List.mem_of_getElem? ha))

/-- Messages which neither preselect a bank nor load a rig. -/
theorem receive_release (d : Device) (r : Int) (h : 0 ≤ r) : d.receiveAll [rigSelect r 0] = d := by
  simp only [Device.receiveAll, List.foldl_cons, List.foldl_nil, Device.receive, rigSelect]
  rw [if_neg (by omega), if_neg (by omega)]

theorem rigSelect_loads (s : Int) (h0 : 0 ≤ s) (h4 : s ≤ 4) : loads (rigSelect s 1) = true := by
  exact decide_eq_true ⟨by show 50 ≤ 50 + s; omega, by show 50 + s ≤ 54; omega, rfl⟩

theorem release_not_loads (r : Int) : ([rigSelect r 0].any loads) = false := by
  simp [loads, rigSelect]

theorem mkRig_valid (b s : Int) (hb : 0 ≤ b ∧ b < 125) (hs : 0 ≤ s ∧ s ≤ 4) : Valid (mkRig b s) := by
  unfold Valid mkRig; omega

theorem bankOf_range {v : Int} (h : Valid v) : 0 ≤ bankOf v ∧ bankOf v < 125 := by
  unfold Valid at h; unfold bankOf; omega

theorem slotOf_range (v : Int) : 0 ≤ slotOf v ∧ slotOf v ≤ 4 := by unfold slotOf; omega

theorem meantRig_valid (rig bank rigOff bankOff : Option Int) (id : Int) (hid : Valid id) (h1 : ∀ r, rig = some r → isSlot r)
    (h2 : ∀ r, rigOff = some r → isSlot r) (h3 : ∀ b, bank = some b → isBank b) (h4 : ∀ b, bankOff = some b → isBank b) :
    Valid (meantRig rig bank rigOff bankOff id) := by
  have hb := bankOf_range hid
  have hs := slotOf_range id
  have hbank : 0 ≤ (bank.map (· - 1)).getD (bankOf id) ∧ (bank.map (· - 1)).getD (bankOf id) < 125 := by
    cases bank with
    | none => exact hb
    | some b => have := h3 b rfl; unfold isBank at this; simp only [Option.map_some, Option.getD_some]; omega
  unfold meantRig
  cases rig with
  | none => exact mkRig_valid _ _ hbank hs
  | some r =>
    have hr := h1 r rfl
    unfold isSlot at hr
    simp only
    split
    · apply mkRig_valid
      · cases bank with
        | none => exact hb
        | some b =>
          have hb' := h3 b rfl
          unfold isBank at hb'
          cases bankOff with
          | none => simp only [Option.getD_none]; omega
          | some o => have := h4 o rfl; unfold isBank at this; simp only [Option.getD_some]; omega
      · cases rigOff with
        | none => simp only [Option.getD_none]; omega
        | some o => have := h2 o rfl; unfold isSlot at this; simp only [Option.getD_some]; omega
    · exact mkRig_valid _ _ hbank (by omega)

/-- The slot selected by a rig select switch. -/
theorem slot_range (c : RigSelect) (k : Look) (st : SelState) (sh : Shared) (v : Int) (hex : Configured (.rigSelect c k))
    (hok : SelOk (.rigSelect c k) st) (hv : st.value = some v) : ∃ s, c.slot st sh = some s ∧ 0 ≤ s ∧ s ≤ 4 := by
  have hmid : ∃ s, (match c.rig with
      | some r => some (r - 1)
      | none => st.value.map (· % 5)) = some s ∧ 0 ≤ s ∧ s ≤ 4 := by
    cases hr : c.rig with
    | none => rw [hv]; exact ⟨v % 5, rfl, by omega, by omega⟩
    | some r =>
      have := hex.1 r hr
      unfold isSlot at this
      exact ⟨r - 1, rfl, by omega, by omega⟩
  unfold RigSelect.slot
  split
  · rename_i o _ ho
    have := hok.1 o ho
    unfold isSlot at this
    exact ⟨o - 1, rfl, by omega, by omega⟩
  · exact hmid

/-- What pushing a rig select switch does, if actions and device belong together. -/
theorem push_rigSelect (as : List Act) (s : Sys) (d : Device) (n : Nat) (c : RigSelect) (k : Look) (x : ActState)
    (h : Inv as s d) (hex : Configured (.rigSelect c k)) (ha : as[n]? = some (.rigSelect c k)) (hx : s.acts[n]? = some x) :
    ∃ id sent, Valid id ∧ d.receiveAll (c.push x.sel s.env.shared).2.2 = ⟨id, none⟩ ∧
      (c.push x.sel s.env.shared).2.2.any loads = true ∧
      (c.push x.sel s.env.shared).2.1.preselectedBank = none ∧
      (c.push x.sel s.env.shared).1 = { x.sel with sent := some sent } ∧ 0 ≤ sent ∧
      id = (match s.env.shared.preselectedBank with
        | none => meantRig c.rig c.bank x.sel.rigOff x.sel.bankOff d.current
        | some b => mkRig b ((c.rig.map (· - 1)).getD (slotOf d.current))) := by
  have hg := h.good n _ x ha hx
  obtain ⟨slot, hslot, s0, s4⟩ := slot_range c k x.sel s.env.shared d.current hex hg.sel hg.value
  have hok : SlotsOk c x.sel := ⟨hex.1, hg.sel.1⟩
  cases hp : s.env.shared.preselectedBank with
  | none =>
    have hsync : d.preselected.getD (bankOf d.current) = bankOf d.current := by rw [h.sync, hp]; rfl
    refine ⟨_, slot, meantRig_valid c.rig c.bank x.sel.rigOff x.sel.bankOff d.current h.valid hex.1 hg.sel.1 hex.2.2.1 hg.sel.2.1,
      C46_push c x.sel s.env.shared d hok h.valid hg.value hp hsync, ?_, ?_, ?_, s0, rfl⟩
    · unfold RigSelect.push
      rw [hslot, hp]
      simp [rigSelect_loads slot s0 s4]
    · unfold RigSelect.push
      rw [hp]
    · unfold RigSelect.push
      rw [hp, hslot]
  | some b =>
    have hsync : d.preselected.getD (bankOf d.current) = b := by rw [h.sync, hp]; rfl
    have hb : 0 ≤ b ∧ b < 125 := by
      cases hd : d.preselected with
      | none => rw [hd] at hsync; rw [← hsync]; exact bankOf_range h.valid
      | some p => rw [hd] at hsync; rw [← hsync]; exact h.pre p hd
    have hs : 0 ≤ (c.rig.map (· - 1)).getD (slotOf d.current) ∧ (c.rig.map (· - 1)).getD (slotOf d.current) ≤ 4 := by
      cases hr : c.rig with
      | none => exact slotOf_range _
      | some r =>
        have := hex.1 r hr
        unfold isSlot at this
        simp only [Option.map_some, Option.getD_some]; omega
    obtain ⟨e1, e2⟩ := C46_preselected c x.sel s.env.shared d hok hg.value b hp hsync
    refine ⟨_, slot, mkRig_valid b _ hb hs, e1, ?_, e2, ?_, s0, rfl⟩
    · unfold RigSelect.push
      rw [hslot, hp]
      simp [rigSelect_loads slot s0 s4]
    · unfold RigSelect.push
      rw [hp, hslot]

theorem set_weak (as : List Act) (v : Int) (e : Env) (ss : List ActState) (n : Nat) (a : Act) (y : ActState) (ha : as[n]? = some a)
    (hy : SelOk a y.sel ∧ (∀ r, y.sel.sent = some r → 0 ≤ r) ∧ (y.enabled = true → CacheOk a y))
    (h : ∀ (n : Nat) a x, as[n]? = some a → ss[n]? = some x → Good a e v x) :
    ∀ (m : Nat) a x, as[m]? = some a → (ss.set n y)[m]? = some x →
      SelOk a x.sel ∧ (∀ r, x.sel.sent = some r → 0 ≤ r) ∧ (x.enabled = true → CacheOk a x) := by
  intro m b x hb hx
  rw [List.getElem?_set] at hx
  split at hx
  · rename_i hm
    subst hm
    split at hx
    · rw [ha] at hb
      simp only [Option.some.injEq] at hb hx
      rw [← hb, ← hx]; exact hy
    · cases hx
  · exact (h m b x hb hx).weak

theorem modify_sent_good (as : List Act) (e : Env) (v : Int) (ss : List ActState) (n : Nat) (sent : Option Int)
    (hs : ∀ r, sent = some r → 0 ≤ r) (h : ∀ (n : Nat) a x, as[n]? = some a → ss[n]? = some x → Good a e v x) :
    ∀ (m : Nat) a x, as[m]? = some a → (ss.modify n fun y => { y with sel := { y.sel with sent } })[m]? = some x → Good a e v x := by
  intro m a x ha hx
  rw [List.getElem?_modify] at hx
  obtain ⟨y, hy, rfl⟩ := Option.map_eq_some_iff.1 hx
  split
  · exact good_sent a e v y (h m a y ha hy) sent hs
  · exact h m a y ha hy

theorem loop_press (as : List Act) (s : Sys) (d : Device) (n : Nat) :
    loopStep as (s, d) (.press n) = if (press as s n).2.any loads then
      ((step as (press as s n).1 (.value (d.receiveAll (press as s n).2).current)).1, d.receiveAll (press as s n).2)
      else ((press as s n).1, d.receiveAll (press as s n).2) := rfl

theorem press_inv (as : List Act) (s : Sys) (d : Device) (hex : ∀ a ∈ as, Configured a)
    (has : Supported as) (h : Inv as s d) (n : Nat) :
    Inv as (loopStep as (s, d) (.press n)).1 (loopStep as (s, d) (.press n)).2 := by
  have nothing : press as s n = (s, []) → Inv as (loopStep as (s, d) (.press n)).1 (loopStep as (s, d) (.press n)).2 := by
    intro hp
    simp only [loopStep, step, hp, List.any_nil, Bool.false_eq_true, if_false]
    exact h
  cases ha : as[n]? with
  | none => exact nothing (by unfold press; rw [ha])
  | some a =>
    cases hx : s.acts[n]? with
    | none => exact nothing (by unfold press; rw [ha, hx])
    | some x =>
      cases hen : x.enabled with
      | false => exact nothing (by unfold press; rw [ha, hx]; simp [hen])
      | true =>
        have hmem := List.mem_of_getElem? ha
        cases a with
        | bankChange c k => exact absurd rfl (has.1 _ hmem c k)
        | rigChange c k =>
          have hd : d = ⟨d.current, none⟩ := by rw [← h.nopre (has.2 _ hmem c k rfl)]
          have hg := h.good n _ x ha hx
          have hst : x.state.value = some d.current := hg.value
          obtain ⟨p1, p2⟩ := C44_push_partial c x.state s.env.shared d h.valid (h.nopre (has.2 _ hmem c k rfl)) hst
          have hsh : (c.push x.state s.env.shared).2.1.preselectedBank = s.env.shared.preselectedBank := by
            unfold RigChange.push
            rw [hst]
            simp only
            split <;> rfl
          have hnone : s.env.shared.preselectedBank = none := by
            rcases h.pending with h' | h'
            · exact h'
            · rw [← h', h.nopre (has.2 _ hmem c k rfl)]
          have hp : press as s n = (⟨{ s.env with shared := (c.push x.state s.env.shared).2.1 },
              s.acts.set n { x with sel := { x.sel with sent := (c.push x.state s.env.shared).1.sent } }⟩,
              (c.push x.state s.env.shared).2.2) := by
            unfold press; rw [ha, hx]; simp only [hen, if_true]
          have hv := C43_valid c.up c.keepBank d.current h.valid
          have hsent : ∀ r, (c.push x.state s.env.shared).1.sent = some r → 0 ≤ r := by
            intro r
            unfold RigChange.push
            rw [hst]
            simp only
            split
            · exact hg.sent r
            · intro hr
              simp only [Option.some.injEq] at hr
              omega
          rw [loop_press, hp]
          simp only [p2]
          by_cases ht : rigAfter c.up c.keepBank d.current = d.current
          · simp only [p1, ht, if_true, List.any_nil, Bool.false_eq_true, if_false]
            rw [← hd]
            refine ⟨by simp only [List.length_set]; exact h.len, h.valid, by simp only [hsh]; exact h.sync,
              by simp only [hsh]; exact h.pending, h.nopre, h.pre, ?_⟩
            refine set_good as _ d.current s.acts n _ _ ha ?_ ?_
            · exact good_congr _ s.env _ d.current _ (good_sent _ s.env d.current x hg _ hsent) hsh
            · intro m b y hb hy
              exact good_congr b s.env _ d.current y (h.good m b y hb hy) hsh
          · have hl : (c.push x.state s.env.shared).2.2.any loads = true := by
              have hl' := rigSelect_loads _ (slotOf_range (rigAfter c.up c.keepBank d.current)).1
                (slotOf_range (rigAfter c.up c.keepBank d.current)).2
              unfold rigSelect at hl'
              rw [p1, if_neg ht]
              split <;> simp [hl']
            simp only [hl, if_true]
            refine inv_report as _ ⟨_, none⟩ ?_ hv rfl ?_ ?_
            · simp only [List.length_set]; exact h.len
            · exact hsh.trans hnone
            · refine set_weak as d.current s.env s.acts n _ _ ha ?_ h.good
              exact ⟨trivial, hsent, fun _ => trivial⟩
        | rigSelect c k =>
          obtain ⟨id, sent, h1, h2, h3, h4, h5, h6, -⟩ := push_rigSelect as s d n c k x h (hex _ hmem) ha hx
          have hp : press as s n = (⟨{ s.env with shared := (c.push x.sel s.env.shared).2.1 },
              s.acts.set n { x with sel := (c.push x.sel s.env.shared).1 }⟩, (c.push x.sel s.env.shared).2.2) := by
            unfold press; rw [ha, hx]; simp [hen]
          rw [loop_press, hp]
          simp only [h3, h2, if_true]
          refine inv_report as _ ⟨id, none⟩ ?_ h1 rfl ?_ ?_
          · simp only [List.length_set]; exact h.len
          · exact h4
          · refine set_weak as d.current s.env s.acts n _ _ ha ?_ h.good
            simp only [h5]
            exact ⟨(h.good n _ x ha hx).sel, fun r hr => by simp only [Option.some.injEq] at hr; omega, fun _ => trivial⟩
        | bankSelect c k =>
          have hg := h.good n _ x ha hx
          have hex' : isBank c.bank ∧ ∀ b, c.bankOff = some b → isBank b := hex _ hmem
          have hst : x.state.value = some d.current := hg.value
          have hbank := hex'.1
          unfold isBank at hbank
          cases hc : c.preselect with
          | false =>
            obtain ⟨p1, p2⟩ := C47_push { c with id := n } hc x.state s.env.shared d h.valid hst
            have hsent : ({ c with id := n }.push x.state s.env.shared).1.sent = some (d.current % 5) ∧
                ({ c with id := n }.push x.state s.env.shared).2.2.any loads = true := by
              unfold BankSelect.push
              rw [hst]
              simp only [hc, Bool.not_false, if_true]
              refine ⟨trivial, ?_⟩
              simp [rigSelect_loads (d.current % 5) (by omega) (by omega)]
            have hp : press as s n = (⟨{ s.env with shared := ({ c with id := n }.push x.state s.env.shared).2.1 },
                (drawAll as s.env s.acts).modify n fun y => { y with sel := { y.sel with sent := some (d.current % 5) } }⟩,
                ({ c with id := n }.push x.state s.env.shared).2.2) := by
              unfold press; rw [ha, hx]; rw [← hsent.1]; simp only [hen, hc, hg.value, Option.isSome_some, if_true]; rfl
            have hm := modify_sent_good as s.env d.current _ n (some (d.current % 5))
                (fun r hr => by simp only [Option.some.injEq] at hr; omega)
                (drawAll_good as s.env d.current h.valid s.acts (fun m a x ha hx => (h.good m a x ha hx).toPre))
            rw [loop_press, hp]
            simp only [hsent.2, p1, if_true]
            refine inv_report as _ ⟨_, none⟩ ?_ ?_ rfl ?_ ?_
            · simp only [List.length_modify, drawAll_len]; exact h.len
            · apply mkRig_valid _ _ _ (slotOf_range _)
              split
              · cases ho : c.bankOff with
                | none => simp only [Option.getD_none]; omega
                | some o => have := hex'.2 o ho; unfold isBank at this; simp only [Option.getD_some]; omega
              · show 0 ≤ c.bank - 1 ∧ c.bank - 1 < 125
                omega
            · exact p2
            · intro m a y ha hy
              exact (hm m a y ha hy).weak
          | true =>
            obtain ⟨p1, p2, p3⟩ := C47_preselect { c with id := n } hc x.state s.env.shared d h.valid hst
            have hany : ({ c with id := n }.push x.state s.env.shared).2.2.any loads = false := by
              unfold BankSelect.push
              rw [hst]
              simp only [hc, Bool.not_true, Bool.false_eq_true, if_false]
              unfold BankSelect.bankMsg
              simp only [BankSelect.off, if_true]
              simp [loads, bankSelect]
            have hp : press as s n = (⟨{ s.env with shared := ({ c with id := n }.push x.state s.env.shared).2.1 },
                (drawAll as { s.env with shared := ({ c with id := n }.push x.state s.env.shared).2.1 } s.acts).modify n
                  fun y => { y with sel := { y.sel with sent := x.sel.sent } }⟩,
                ({ c with id := n }.push x.state s.env.shared).2.2) := by
              unfold press; rw [ha, hx]; simp only [hen, hc, hg.value, Option.isSome_some, if_true]
              rw [hc] at p2; rw [p2]; rfl
            rw [loop_press, hp]
            simp only [hany, p1, Bool.false_eq_true, if_false]
            refine ⟨?_, h.valid, ?_, ?_, fun hn => (by have h' := hn _ hmem; rw [Act.preselect, hc] at h'; cases h'), ?_, ?_⟩
            · simp only [List.length_modify, drawAll_len]; exact h.len
            · simp only [p3, Option.getD_some]
              split
              · rfl
              · rename_i hn
                have : bankOf d.current = c.bank - 1 := Classical.byContradiction fun h' => hn (.inr h')
                simp [this]
            · simp only [p3]
              split
              · exact .inr rfl
              · exact .inl rfl
            · intro p hp'
              simp only [Option.some.injEq] at hp'
              omega
            · exact modify_sent_good as _ d.current _ n x.sel.sent hg.sent
                (drawAll_good as _ d.current h.valid s.acts (fun m a x ha hx => (h.good m a x ha hx).toPre))

theorem release_inv (as : List Act) (s : Sys) (d : Device) (h : Inv as s d) (n : Nat) :
    Inv as (loopStep as (s, d) (.release n)).1 (loopStep as (s, d) (.release n)).2 := by
  have nothing : release as s n = (s, []) → Inv as (loopStep as (s, d) (.release n)).1 (loopStep as (s, d) (.release n)).2 := by
    intro hp
    simp only [loopStep, step, hp, List.any_nil, Bool.false_eq_true, if_false]
    exact h
  cases ha : as[n]? with
  | none => exact nothing (by unfold RigDisplay.release; rw [ha])
  | some a =>
    cases hx : s.acts[n]? with
    | none => exact nothing (by unfold RigDisplay.release; rw [ha, hx])
    | some x =>
      have hg := h.good n a x ha hx
      -- what is sent and changed
      have key : ∀ (sh : Shared) (sel : Option Int) (ms : List CC),
          release as s n = ({ env := { s.env with shared := sh }, acts := s.acts.set n { x with sel := { x.sel with sent := sel } } }, ms) →
          sh.preselectedBank = s.env.shared.preselectedBank → (∀ r, sel = some r → 0 ≤ r) → (ms = [] ∨ ∃ r, 0 ≤ r ∧ ms = [rigSelect r 0]) →
          Inv as (loopStep as (s, d) (.release n)).1 (loopStep as (s, d) (.release n)).2 := by
        intro sh sel ms hp hsh hsel hms
        have h1 : ms.any loads = false := by
          rcases hms with rfl | ⟨r, -, rfl⟩
          · rfl
          · exact release_not_loads r
        have h2 : d.receiveAll ms = d := by
          rcases hms with rfl | ⟨r, hr, rfl⟩
          · rfl
          · exact receive_release d r hr
        simp only [loopStep, step, hp, h1, h2, Bool.false_eq_true, if_false]
        refine ⟨by simp only [List.length_set]; exact h.len, h.valid, by simp only [hsh]; exact h.sync, by simp only [hsh]; exact h.pending,
          h.nopre, h.pre, ?_⟩
        refine set_good as _ d.current s.acts n a _ ha ?_ ?_
        · exact good_congr a s.env _ d.current _ (good_sent a s.env d.current x hg sel hsel) hsh
        · intro m b y hb hy
          exact good_congr b s.env _ d.current y (h.good m b y hb hy) hsh
      have hrel : ∃ sel ms, (sel = none ∨ sel = x.sel.sent) ∧ (ms = [] ∨ ∃ r, 0 ≤ r ∧ ms = [rigSelect r 0]) ∧
          (Rigs.release x.state).1.sent = sel ∧ (Rigs.release x.state).2 = ms := by
        unfold Rigs.release ActState.state
        cases hs : x.sel.sent with
        | none => exact ⟨none, [], .inl rfl, .inl rfl, rfl, rfl⟩
        | some r => exact ⟨none, _, .inl rfl, .inr ⟨r, hg.sent r hs, rfl⟩, rfl, rfl⟩
      obtain ⟨sel, ms, r1, r2, r3, r4⟩ := hrel
      have hsel : ∀ r, sel = some r → 0 ≤ r := by
        intro r hr
        rcases r1 with rfl | rfl
        · cases hr
        · exact hg.sent r hr
      cases a with
      | bankChange c k => exact nothing (by unfold RigDisplay.release; rw [ha, hx])
      | bankSelect c k =>
        exact key s.env.shared sel ms (by unfold RigDisplay.release; rw [ha, hx]; simp only [r3, r4]) rfl hsel r2
      | rigChange c k =>
        exact key s.env.shared sel ms (by unfold RigDisplay.release; rw [ha, hx]; simp only [r3, r4]) rfl hsel r2
      | rigSelect c k =>
        have hr : ∃ sh ms, (c.release x.sel s.env.shared) = ({ x.sel with sent := none }, sh, ms) ∧
            sh.preselectedBank = s.env.shared.preselectedBank ∧ (ms = [] ∨ ∃ r, 0 ≤ r ∧ ms = [rigSelect r 0]) := by
          have hsh : ∀ b : Prop, [Decidable b] → (if b then { s.env.shared with morphOverride := some 0 } else s.env.shared).preselectedBank =
              s.env.shared.preselectedBank := by intro b _; split <;> rfl
          unfold RigSelect.release
          rw [hg.value]
          simp only
          cases hs : x.sel.sent with
          | none =>
            refine ⟨_, _, Prod.ext ?_ (Prod.ext rfl rfl), hsh _, .inl rfl⟩
            simp only
            rw [← hs]
          | some r => exact ⟨_, _, Prod.ext (by simp only [← hg.value]) (Prod.ext rfl rfl), hsh _, .inr ⟨r, hg.sent r hs, rfl⟩⟩
        obtain ⟨sh, ms, hr, hsh, hms⟩ := hr
        exact key sh none ms (by unfold RigDisplay.release; rw [ha, hx]; simp only [hr]) hsh (fun r hr => by cases hr) hms

theorem tick_inv (as : List Act) (s : Sys) (d : Device) (h : Inv as s d) (n : Nat) (b : Bool) :
    Inv as (tick as s n b) d := by
  unfold tick
  cases ha : as[n]? with
  | none => exact h
  | some a =>
    cases hx : s.acts[n]? with
    | none => exact h
    | some x =>
      have hg := h.good n a x ha hx
      have key : ∀ (e : Env) (y : ActState), e.shared = s.env.shared → Pre a d.current y →
          Inv as { env := e, acts := s.acts.set n (a.draw n e y) } d := by
        intro e y he hy
        refine ⟨by simp only [List.length_set]; exact h.len, h.valid, by simp only [he]; exact h.sync, by simp only [he]; exact h.pending,
          h.nopre, h.pre, ?_⟩
        refine set_good as e d.current s.acts n a _ ha (draw_good a n e d.current h.valid y hy) ?_
        intro m c z hc hz
        exact good_congr c s.env e d.current z (h.good m c z hc hz) (by rw [he])
      cases a with
      | rigSelect c k =>
        simp only
        split
        · split
          · exact key s.env _ rfl ⟨hg.value, hg.sel, hg.sent, fun _ => trivial⟩
          · exact h
        · exact h
      | bankSelect c k =>
        simp only
        split
        · exact key _ _ rfl hg.toPre
        · exact h
      | bankChange c k =>
        simp only
        split
        · exact key _ _ rfl hg.toPre
        · exact h
      | rigChange c k => exact h

theorem loop_inv (as : List Act) (hex : ∀ a ∈ as, Configured a)
    (has : Supported as) (s : Sys × Device) (h : Inv as s.1 s.2) (e : Event) :
    Inv as (loopStep as s e).1 (loopStep as s e).2 := by
  obtain ⟨s, d⟩ := s
  cases e with
  | value v => exact h
  | press n => exact press_inv as s d hex has h n
  | release n => exact release_inv as s d h n
  | tick n b => exact tick_inv as s d h n b
  | reset n =>
    have hstep : Inv as (step as s (.reset n)).1 d ∧ (step as s (.reset n)).2 = [] := by
      simp only [step]
      split
      · rename_i a x ha hx
        exact ⟨⟨by simp only [List.length_set]; exact h.len, h.valid, h.sync, h.pending, h.nopre, h.pre,
          set_good as s.env d.current s.acts n a _ ha (reset_good a n s.env d.current h.valid x (h.good n a x ha hx)) h.good⟩, rfl⟩
      · exact ⟨h, rfl⟩
    simp only [loopStep, hstep.2, List.any_nil, Bool.false_eq_true, if_false]
    exact hstep.1
  | enable n b =>
    have hstep : Inv as (step as s (.enable n b)).1 d ∧ (step as s (.enable n b)).2 = [] := by
      simp only [step]
      split
      · rename_i a x ha hx
        split
        · exact ⟨h, rfl⟩
        · exact ⟨⟨by simp only [List.length_set]; exact h.len, h.valid, h.sync, h.pending, h.nopre, h.pre,
            set_good as s.env d.current s.acts n a _ ha (enable_good a n s.env d.current h.valid x (h.good n a x ha hx) b) h.good⟩, rfl⟩
      · exact ⟨h, rfl⟩
    simp only [loopStep, hstep.2, List.any_nil, Bool.false_eq_true, if_false]
    exact hstep.1

theorem run_inv (as : List Act) (hex : ∀ a ∈ as, Configured a)
    (has : Supported as) (s0 : Sys) (h0 : Sys.init as = some s0)
    (id : Int) (hid : Valid id) (es : List Event) : Inv as (loopRun as s0 id es).1 (loopRun as s0 id es).2 := by
  have key : ∀ (es : List Event) (s : Sys × Device), Inv as s.1 s.2 → Inv as (es.foldl (loopStep as) s).1 (es.foldl (loopStep as) s).2 := by
    intro es
    induction es with
    | nil => exact fun s h => h
    | cons e es ih => exact fun s h => ih _ (loop_inv as hex has s h e)
  exact key es _ (inv_start as s0 h0 hex id hid)

theorem bank_mk (b s : Int) (h : 0 ≤ s ∧ s ≤ 4) : bankOf (mkRig b s) = b := by unfold bankOf mkRig; omega
theorem slot_mk (b s : Int) (h : 0 ≤ s ∧ s ≤ 4) : slotOf (mkRig b s) = s := by unfold slotOf mkRig; omega

theorem nextRig_eq (c : RigChange) (v : Int) (h : Valid v) : c.nextRig (v % 5) v = rigAfter c.up c.keepBank v := by
  obtain ⟨h1, h2⟩ := h
  unfold RigChange.nextRig rigAfter slotOf
  cases c.up <;> cases c.keepBank <;> simp <;> (try split) <;> (try split) <;> omega

/-- Is the current rig the one of the switch? -/
theorem state_eq (c : RigSelect) (st : SelState) (v : Int) (hv : Valid v) (h : st.value = some v) :
    c.state st = true ↔ (c.rig = some (slotOf v + 1) ∧ (c.bank = none ∨ c.bank = some (bankOf v + 1))) := by
  unfold RigSelect.state slotOf bankOf
  rw [h]
  cases c.rig with
  | none => simp
  | some r =>
    cases c.bank with
    | none => simp; omega
    | some b =>
      simp only [tdiv5' hv.1]
      split
      · simp; omega
      · simp; omega

/-- The rig a rig select switch shows is the one it selects. -/
theorem target_eq (c : RigSelect) (k : Look) (st : SelState) (sh : Shared) (v : Int) (hv : Valid v) (h : st.value = some v)
    (hex : Configured (.rigSelect c k)) (hok : SelOk (.rigSelect c k) st) (hoff : OffComplete (.rigSelect c k)) (id : Int)
    (hid : id = (match sh.preselectedBank with
        | none => meantRig c.rig c.bank st.rigOff st.bankOff v
        | some b => mkRig b ((c.rig.map (· - 1)).getD (slotOf v)))) :
    rigSelectTarget c st sh v = (bankOf id, slotOf id) := by
  have hs := state_eq c st v hv h
  have hsl := slotOf_range v
  subst hid
  unfold rigSelectTarget
  cases hp : sh.preselectedBank with
  | some p =>
    simp only
    cases hr : c.rig with
    | none =>
      simp only [Option.map_none, Option.getD_none]
      rw [bank_mk _ _ hsl, slot_mk _ _ hsl]
      rfl
    | some r =>
      have := hex.1 r hr
      unfold isSlot at this
      simp only [Option.map_some, Option.getD_some]
      rw [bank_mk _ _ (by omega), slot_mk _ _ (by omega)]
  | none =>
    simp only [tdiv5' hv.1]
    have hcur : mkRig (bankOf v) (slotOf v) = v := by unfold mkRig bankOf slotOf; omega
    cases hr : c.rig with
    | none =>
      have hst : c.state st = false := by
        cases hst : c.state st with
        | false => rfl
        | true => rw [hr] at hs; have := (hs.1 hst).1; cases this
      cases hb : c.bank with
      | none =>
        simp only [hst, meantRig, Option.map_none, Option.getD_none, hcur]
        rfl
      | some b =>
        simp only [hst, meantRig, Option.map_some, Option.getD_some]
        rw [bank_mk _ _ hsl, slot_mk _ _ hsl]
        rfl
    | some r =>
      have hr5 := hex.1 r hr
      unfold isSlot at hr5
      rw [hr] at hs
      cases hb : c.bank with
      | none =>
        rw [hb] at hs
        have hon : v = mkRig (bankOf v) (r - 1) ↔ c.state st = true := by
          rw [hs]; unfold mkRig bankOf slotOf; simp; omega
        simp only [meantRig, Option.map_none, Option.getD_none]
        cases hst : c.state st with
        | false =>
          rw [if_neg (by rw [hon, hst]; simp)]
          simp only
          rw [bank_mk _ _ (by omega), slot_mk _ _ (by omega)]
          rfl
        | true =>
          rw [if_pos (hon.2 hst)]
          cases ho : st.rigOff with
          | none =>
            simp only [Option.getD_none]
            rw [bank_mk _ _ (by omega), slot_mk _ _ (by omega)]
            rfl
          | some o =>
            have := hok.1 o ho
            unfold isSlot at this
            simp only [Option.getD_some]
            rw [bank_mk _ _ (by omega), slot_mk _ _ (by omega)]
            rfl
      | some b =>
        rw [hb] at hs
        have hon : v = mkRig (b - 1) (r - 1) ↔ c.state st = true := by
          rw [hs]; unfold mkRig bankOf slotOf; simp; omega
        simp only [meantRig, Option.map_some, Option.getD_some]
        cases hst : c.state st with
        | false =>
          rw [if_neg (by rw [hon, hst]; simp)]
          simp only
          rw [bank_mk _ _ (by omega), slot_mk _ _ (by omega)]
        | true =>
          rw [if_pos (hon.2 hst)]
          have hoff' : st.bankOff.isSome = true → st.rigOff.isSome = true := by
            intro hbo
            rw [hok.2.2.2.1] at hbo
            rw [hok.2.2.1]
            have := hoff (by rw [hb]; rfl)
            grind
          cases ho : st.rigOff with
          | none =>
            have hbo : st.bankOff = none := by
              cases hbo : st.bankOff with
              | none => rfl
              | some o => rw [hbo, ho] at hoff'; simp at hoff'
            simp only [hbo, Option.getD_none]
            rw [bank_mk _ _ (by omega), slot_mk _ _ (by omega)]
          | some o =>
            have := hok.1 o ho
            unfold isSlot at this
            cases hbo : st.bankOff with
            | none =>
              exfalso
              have h5 := hok.2.2.2.2
              have h3 := hok.2.2.1
              have h4 := hok.2.2.2.1
              rw [ho] at h3
              rw [hbo] at h4
              unfold RigSelect.init at h5
              simp only [← h3, ← h4, hb] at h5
              simp at h5
            | some bo =>
              simp only [Option.getD_some]
              rw [bank_mk _ _ (by omega), slot_mk _ _ (by omega)]

/-- The color of a rig select switch is the one of the bank it leads to. -/
theorem color_eq (c : RigSelect) (k : Look) (st : SelState) (sh : Shared) (v : Int) (hv : Valid v) (h : st.value = some v)
    (hex : Configured (.rigSelect c k)) (hok : SelOk (.rigSelect c k) st) (hk : ShowsTarget (.rigSelect c k)) (id : Int)
    (hid : id = (match sh.preselectedBank with
        | none => meantRig c.rig c.bank st.rigOff st.bankOff v
        | some b => mkRig b ((c.rig.map (· - 1)).getD (slotOf v)))) :
    rigSelectColor c k st sh v = bankColor (bankOf id) := by
  have hs := state_eq c st v hv h
  have hsl := slotOf_range v
  obtain ⟨ht, -, -, hc, hcc⟩ := hk
  subst hid
  unfold rigSelectColor
  rw [hc, hcc, ht]
  simp only [tdiv5' hv.1]
  cases hp : sh.preselectedBank with
  | some p =>
    simp only
    cases hr : c.rig with
    | none =>
      simp only [Option.map_none, Option.getD_none]
      rw [bank_mk _ _ hsl]
    | some r =>
      have := hex.1 r hr
      unfold isSlot at this
      simp only [Option.map_some, Option.getD_some]
      rw [bank_mk _ _ (by omega)]
  | none =>
    simp only
    have hcur : mkRig (bankOf v) (slotOf v) = v := by unfold mkRig bankOf slotOf; omega
    have hro : 0 ≤ st.rigOff.getD 1 - 1 ∧ st.rigOff.getD 1 - 1 ≤ 4 := by
      cases ho : st.rigOff with
      | none => simp
      | some o => have := hok.1 o ho; unfold isSlot at this; simp only [Option.getD_some]; omega
    cases hr : c.rig with
    | none =>
      have hst : c.state st = false := by
        cases hst : c.state st with
        | false => rfl
        | true => rw [hr] at hs; have := (hs.1 hst).1; cases this
      cases hb : c.bank with
      | none =>
        simp only [meantRig, Option.map_none, Option.getD_none, hcur]
        rfl
      | some b =>
        simp only [hst, meantRig, Option.map_some, Option.getD_some]
        rw [bank_mk _ _ hsl]
        simp
    | some r =>
      have hr5 := hex.1 r hr
      unfold isSlot at hr5
      have hro' : 0 ≤ st.rigOff.getD r - 1 ∧ st.rigOff.getD r - 1 ≤ 4 := by
        cases ho : st.rigOff with
        | none => simp only [Option.getD_none]; omega
        | some o => have := hok.1 o ho; unfold isSlot at this; simp only [Option.getD_some]; omega
      rw [hr] at hs
      cases hb : c.bank with
      | none =>
        simp only [meantRig, Option.map_none, Option.getD_none]
        split
        · rw [bank_mk _ _ hro']; rfl
        · rw [bank_mk _ _ (by omega)]; rfl
      | some b =>
        rw [hb] at hs
        have hon : v = mkRig (b - 1) (r - 1) ↔ c.state st = true := by
          rw [hs]; unfold mkRig bankOf slotOf; simp; omega
        simp only [meantRig, Option.map_some, Option.getD_some, if_true]
        cases hst : c.state st with
        | false =>
          rw [if_neg (by rw [hon, hst]; simp), bank_mk _ _ (by omega)]
          cases st.bankOff <;> simp
        | true =>
          rw [if_pos (hon.2 hst), bank_mk _ _ hro']
          cases st.bankOff <;> simp

/-- Pressing leads to the rig or bank shown. -/
theorem label_press (as : List Act) (s : Sys) (d : Device) (hex : ∀ a ∈ as, Configured a) (has : Supported as) (h : Inv as s d)
    (n : Nat) (a : Act) (x : ActState) (ha : as[n]? = some a) (hx : s.acts[n]? = some x) (hen : x.enabled = true)
    (ht : ShowsTarget a) :
    (OffComplete a → x.label.map (·.text) = some (nameFor a (loopStep as (s, d) (.press n)).2)) ∧
    x.label.map (·.color) = some (bankColor (Device.bank (loopStep as (s, d) (.press n)).2)) ∧
    x.led.map (·.color) = some (bankColor (Device.bank (loopStep as (s, d) (.press n)).2)) := by
  have hg := h.good n a x ha hx
  have hr := hg.right hen
  have hmem := List.mem_of_getElem? ha
  cases a with
  | bankChange c k => exact absurd rfl (has.1 _ hmem c k)
  | rigSelect c k =>
    obtain ⟨id, sent, h1, h2, h3, h4, h5, h6, h7⟩ := push_rigSelect as s d n c k x h (hex _ hmem) ha hx
    have hd : (loopStep as (s, d) (.press n)).2 = ⟨id, none⟩ := by
      have hp : (press as s n).2 = (c.push x.sel s.env.shared).2.2 := by
        unfold press; rw [ha, hx]; simp [hen]
      rw [loop_press, hp]
      simp only [h3, h2, if_true]
    obtain ⟨r1, r2, r3, r4⟩ := hr
    have hc := color_eq c k x.sel s.env.shared d.current h.valid hg.value (hex _ hmem) hg.sel ht id h7
    rw [hd]
    refine ⟨fun hoff => ?_, ?_, ?_⟩
    · have htgt := target_eq c k x.sel s.env.shared d.current h.valid hg.value (hex _ hmem) hg.sel hoff id h7
      rw [r2]
      obtain ⟨ht, k1, k2, -⟩ := ht
      unfold rigSelectLabel
      simp only [hg.value, ht, if_true, htgt, rigText, k1, k2, Option.map_some]
      rfl
    · rw [r2]
      unfold rigSelectLabel
      simp only [hg.value, ht.1, if_true, Option.map_some, hc]
      rfl
    · rw [r4, hc]
      rfl
  | bankSelect c k =>
    have hex' : isBank c.bank ∧ ∀ b, c.bankOff = some b → isBank b := hex _ hmem
    have hst : x.state.value = some d.current := hg.value
    obtain ⟨cur, r1, r2, r3⟩ := hr
    obtain ⟨ht, k1, k2, k3, k4⟩ := ht
    have hp : (press as s n).2 = ({ c with id := n }.push x.state s.env.shared).2.2 := by
      unfold press; rw [ha, hx]; simp only [hen, if_true]
    have hbank : Device.bank (loopStep as (s, d) (.press n)).2 =
        match c.off with
        | some o => if bankOf d.current = c.bank - 1 then o - 1 else c.bank - 1
        | none => c.bank - 1 := by
      rw [loop_press, hp]
      cases hc : c.preselect with
      | false =>
        obtain ⟨p1, p2⟩ := C47_push { c with id := n } hc x.state s.env.shared d h.valid hst
        have hm : ∀ b, bankOf (mkRig b (slotOf d.current)) = b := fun b => bank_mk _ _ (slotOf_range _)
        have hd : ∀ p : Prop, [Decidable p] → ∀ s1 s2 : Sys, Device.bank ((if p then (s1, (⟨mkRig (if bankOf d.current = c.bank - 1 then c.bankOff.getD c.bank - 1
            else c.bank - 1) (slotOf d.current), none⟩ : Device)) else (s2, ⟨mkRig (if bankOf d.current = c.bank - 1 then c.bankOff.getD c.bank - 1
            else c.bank - 1) (slotOf d.current), none⟩)).2) = (if bankOf d.current = c.bank - 1 then c.bankOff.getD c.bank - 1
            else c.bank - 1) := by
          intro p _ s1 s2
          split <;> exact hm _
        rw [hc] at p1
        rw [p1]
        refine (hd _ _ _).trans ?_
        unfold BankSelect.off
        rw [hc]
        cases c.bankOff <;> simp
      | true =>
        obtain ⟨p1, p2, p3⟩ := C47_preselect { c with id := n } hc x.state s.env.shared d h.valid hst
        rw [hc] at p1
        rw [p1]
        have : ∀ p : Prop, [Decidable p] → ∀ s1 s2 : Sys, Device.bank ((if p then (s1, ({ d with preselected := some (c.bank - 1) } : Device))
            else (s2, { d with preselected := some (c.bank - 1) })).2) = c.bank - 1 := by
          intro p _ s1 s2
          split <;> rfl
        refine (this _ _ _).trans ?_
        unfold BankSelect.off
        rw [hc]
        rfl
    have hcol : bankSelectColor c k d.current = bankColor (Device.bank (loopStep as (s, d) (.press n)).2) := by
      rw [hbank]
      unfold bankSelectColor
      rw [k3, k4, ht]
      simp only [if_true, tdiv5' h.valid.1]
      cases c.off with
      | none => rfl
      | some o =>
        simp only
        show (if bankOf d.current = _ then _ else _) = _
        split <;> rfl
    refine ⟨fun _ => ?_, ?_, ?_⟩
    · rw [r1]
      show _ = some (bankLabel _)
      rw [hbank]
      unfold bankSelectLabel
      simp only [ht, if_true, Option.map_some, bankText, k1, k2]
      cases ho : c.off with
      | none => cases cur <;> rfl
      | some o =>
        have hc : c.preselect = false := by
          unfold BankSelect.off at ho
          cases hc : c.preselect with
          | false => rfl
          | true => rw [hc] at ho; cases ho
        have hcur := r3 (by rw [hc]; simp)
        rw [tdiv5' h.valid.1] at hcur
        by_cases hb : bankOf d.current = c.bank - 1
        · have : cur = true := by rw [hcur]; exact decide_eq_true hb
          subst this
          simp only [hb, if_true]
          rfl
        · have : cur = false := by rw [hcur]; exact decide_eq_false hb
          subst this
          simp only [hb, if_false]
          rfl
    · rw [r1]
      unfold bankSelectLabel
      simp only [ht, if_true, Option.map_some, hcol]
    · rw [r2]
      unfold bankSelectLed
      simp only [Option.map_some, hcol]
  | rigChange c k =>
    have hno := h.nopre (has.2 _ hmem c k rfl)
    have hst : x.state.value = some d.current := hg.value
    obtain ⟨p1, p2⟩ := C44_push_partial c x.state s.env.shared d h.valid hno hst
    obtain ⟨ht, k1, k2, k3, k4⟩ := ht
    have hp : (press as s n).2 = (c.push x.state s.env.shared).2.2 := by
      unfold press; rw [ha, hx]; simp only [hen, if_true]
    have hd : (loopStep as (s, d) (.press n)).2 = ⟨rigAfter c.up c.keepBank d.current, none⟩ := by
      rw [loop_press, hp, p2]
      split <;> rfl
    have hv := C43_valid c.up c.keepBank d.current h.valid
    rw [hd]
    refine ⟨fun _ => ?_, ?_, ?_⟩
    · rw [hr.1]
      unfold rigChangeLabel
      simp only [hg.value, ht, if_true, Option.map_some, rigText, k1, k2, nextRig_eq c _ h.valid, tdiv5' hv.1]
      rfl
    · rw [hr.1]
      unfold rigChangeLabel rigChangeColor
      simp only [hg.value, ht, if_true, Option.map_some, k3, k4, nextRig_eq c _ h.valid, tdiv5' hv.1]
      rfl
    · rw [hr.2]
      unfold rigChangeLed rigChangeColor
      simp only [hg.value, ht, if_true, Option.map_some, k3, k4, nextRig_eq c _ h.valid, tdiv5' hv.1]
      rfl

/-- The brightness while no preselection is pending. -/
theorem bright (as : List Act) (s : Sys) (d : Device) (has : Supported as) (h : Inv as s d) (hd : d.preselected = none)
    (n : Nat) (a : Act) (x : ActState) (ha : as[n]? = some a) (hx : s.acts[n]? = some x) (hen : x.enabled = true)
    (ht : ShowsTarget a) :
    ∃ l c b, x.label = some l ∧ x.led = some ⟨c, b⟩ ∧ (b = true ↔ belongsTo a d.current) ∧
      ((∀ c k, a ≠ .rigChange c k) → l.dimmed = !b) := by
  have hg := h.good n a x ha hx
  have hr := hg.right hen
  have hmem := List.mem_of_getElem? ha
  have hshared : s.env.shared.preselectedBank = none := by
    rcases h.pending with h' | h'
    · exact h'
    · rw [← h', hd]
  cases a with
  | bankChange c k => exact absurd rfl (has.1 _ hmem c k)
  | rigSelect c k =>
    obtain ⟨r1, r2, r3, r4⟩ := hr
    refine ⟨_, rigSelectColor c k x.sel s.env.shared d.current, c.state x.sel, r2, ?_, state_eq c x.sel d.current h.valid hg.value, fun _ => ?_⟩
    · rw [r3 hshared]
      unfold rigSelectLed
      simp only [hg.value, hshared, ht.1, Bool.true_and]
    · unfold rigSelectLabel
      simp only [hg.value, hshared, ht.1, if_true, Option.isSome_none, Bool.false_or]
  | bankSelect c k =>
    obtain ⟨cur, r1, r2, r3⟩ := hr
    refine ⟨_, bankSelectColor c k d.current, cur, r1, ?_, ?_, fun _ => ?_⟩
    · rw [r2]
      unfold bankSelectLed
      simp only [ht.1, Bool.true_and]
    · rw [r3 (by rw [hshared]; simp), tdiv5' h.valid.1, decide_eq_true_iff]
      unfold belongsTo bankOf
      simp only
      omega
    · unfold bankSelectLabel
      simp only [ht.1, if_true]
  | rigChange c k =>
    refine ⟨_, rigChangeColor c k d.current, true, hr.1, ?_, by simp [belongsTo], fun h' => absurd rfl (h' c k)⟩
    rw [hr.2]
    unfold rigChangeLed
    simp only [hg.value]

end C83

/-! ### C83: where a press leads -/

/-- C83. In every history of presses, releases, page changes, resets and updates, in which the device reports each rig it
loads: each visible rig select, bank select or rig up/down switch (in target mode, without texts and colors of its own) shows
the rig or bank to which the device goes if it is pressed now, and it has the color of the bank the next rig comes from. -/
theorem C83_label_partial (as : List Act) (hex : ∀ a ∈ as, Configured a) (has : Supported as) (s0 : Sys) (h0 : Sys.init as = some s0)
    (id : Int) (hid : Valid id) (es : List Event) (n : Nat) (a : Act) (x : ActState) (ha : as[n]? = some a)
    (ht : ShowsTarget a) :
    let s := loopRun as s0 id es
    s.1.acts[n]? = some x → x.enabled = true →
    (OffComplete a → x.label.map (·.text) = some (nameFor a (loopStep as s (.press n)).2)) ∧
    x.label.map (·.color) = some (bankColor (Device.bank (loopStep as s (.press n)).2)) ∧
    x.led.map (·.color) = some (bankColor (Device.bank (loopStep as s (.press n)).2)) := fun hx hen =>
  C83.label_press as _ _ hex has (C83.run_inv as hex has s0 h0 id hid es) n a x ha hx hen ht

/-- Switches of the examples: rig 1-2 or 4-3 back, bank 2 (preselecting), bank 3 or 5. -/
def exRigs : List Act := [.rigSelect { rig := some 2, rigOff := some 3, bank := some 1, bankOff := some 4 } {},
  .bankSelect { bank := 2, preselect := true } {}, .bankSelect { bank := 3, bankOff := some 5 } {}, .rigSelect { rig := some 4 } {}]

def textsOf (s : Sys) : List (Option String) := s.acts.map fun x => x.label.map (·.text)

/-- The hypotheses can be met, and what is shown then. -/
example : (∀ a ∈ exRigs, Configured a ∧ ShowsTarget a ∧ OffComplete a) ∧ Supported exRigs := by
  refine ⟨?_, ?_, ?_⟩
  · intro a ha
    simp only [exRigs, List.mem_cons, List.not_mem_nil, or_false] at ha
    rcases ha with rfl | rfl | rfl | rfl <;> simp [Configured, ShowsTarget, OffComplete, Plain, isSlot, isBank]
  · intro a ha c k
    simp only [exRigs, List.mem_cons, List.not_mem_nil, or_false] at ha
    rcases ha with rfl | rfl | rfl | rfl <;> simp
  · intro a ha c k
    simp only [exRigs, List.mem_cons, List.not_mem_nil, or_false] at ha
    rcases ha with rfl | rfl | rfl | rfl <;> simp

example : ∃ s, Sys.init exRigs = some s ∧
    textsOf (loopRun exRigs s 1 []).1 = [some "Rig 4-3", some "Bank 2", some "Bank 3", some "Rig 1-4"] ∧
    textsOf (loopRun exRigs s 1 [.press 1]).1 = [some "Rig 2-2", some "Bank 2", some "Bank 3", some "Rig 2-4"] ∧
    textsOf (loopRun exRigs s 1 [.press 1, .release 1, .press 3]).1 = [some "Rig 1-2", some "Bank 2", some "Bank 3", some "Rig 2-4"] ∧
    textsOf (loopRun exRigs s 1 [.press 2]).1 = [some "Rig 1-2", some "Bank 2", some "Bank 5", some "Rig 3-4"] :=
  ⟨_, rfl, by decide +kernel⟩

/-- C83. Whatever happens, the device stays in a rig which exists, and the shared data about the preselection does not contradict
the device: a bank is preselected there if it is here, and it is the same one. -/
theorem C83_preselection (as : List Act) (hex : ∀ a ∈ as, Configured a) (has : Supported as) (s0 : Sys) (h0 : Sys.init as = some s0)
    (id : Int) (hid : Valid id) (es : List Event) :
    let s := loopRun as s0 id es
    Valid s.2.current ∧ ∀ b, s.1.env.shared.preselectedBank = some b → s.2.preselected = some b ∧ 0 ≤ b ∧ b < 125 := by
  have h := C83.run_inv as hex has s0 h0 id hid es
  refine ⟨h.valid, fun b hb => ?_⟩
  rcases h.pending with h' | h'
  · rw [hb] at h'; cases h'
  · exact ⟨h'.trans hb, h.pre b (h'.trans hb)⟩

/-- C83 fails for a rig select switch with an off bank but no off rig: in rig 1-2 it shows this rig, but a press leads to 4-2. -/
theorem C83_off_bank_only : ∃ s, Sys.init [.rigSelect { rig := some 2, bank := some 1, bankOff := some 4 } {}] = some s ∧
    let as : List Act := [.rigSelect { rig := some 2, bank := some 1, bankOff := some 4 } {}]
    textsOf (loopRun as s 1 []).1 = [some "Rig 1-2"] ∧ rigLabel (loopRun as s 1 [.press 0]).2.current = "Rig 4-2" :=
  ⟨_, rfl, by decide +kernel⟩

/-- C83 fails with bank up/down in preselect mode: after a press, the rig select switch still shows rig 1-4, but it leads to 2-4
(until the LEDs blink). -/
theorem C83_bank_up_stale : ∃ s, Sys.init [.rigSelect { rig := some 4 } {}, .bankChange { offset := 1, preselect := true } {}] = some s ∧
    let as : List Act := [.rigSelect { rig := some 4 } {}, .bankChange { offset := 1, preselect := true } {}]
    (textsOf (loopRun as s 0 [.press 1]).1)[0]? = some (some "Rig 1-4") ∧
    rigLabel (loopRun as s 0 [.press 1, .press 0]).2.current = "Rig 2-4" ∧
    (textsOf (loopRun as s 0 [.press 1, .tick 1 true, .tick 0 true]).1)[0]? = some (some "Rig 2-4") :=
  ⟨_, rfl, by decide +kernel⟩

/-- C83 fails with rig up/down and a preselection: in rig 1-2 with bank 5 preselected, rig down shows 1-1 but leads to 5-1. This
uses up the preselection in the device, but not in the switches: after another rig down to 4-5, a rig select switch shows 5-4 but
leads to 4-4. -/
theorem C83_rig_down_preselected : ∃ s, Sys.init [.rigSelect { rig := some 4 } {}, .bankSelect { bank := 5, preselect := true } {},
      .rigChange { up := false } {}] = some s ∧
    let as : List Act := [.rigSelect { rig := some 4 } {}, .bankSelect { bank := 5, preselect := true } {}, .rigChange { up := false } {}]
    (textsOf (loopRun as s 1 [.press 1]).1)[2]? = some (some "Rig 1-1") ∧
    rigLabel (loopRun as s 1 [.press 1, .press 2]).2.current = "Rig 5-1" ∧
    rigLabel (loopRun as s 1 [.press 1, .press 2, .press 2]).2.current = "Rig 4-5" ∧
    (loopRun as s 1 [.press 1, .press 2, .press 2]).2.preselected = none ∧
    (textsOf (loopRun as s 1 [.press 1, .press 2, .press 2]).1)[0]? = some (some "Rig 5-4") ∧
    rigLabel (loopRun as s 1 [.press 1, .press 2, .press 2, .press 0]).2.current = "Rig 4-4" :=
  ⟨_, rfl, by decide +kernel⟩

/-! ### C84: which LEDs are bright -/

/-- C84. In every history as above, while the device has no preselected bank: the LEDs of a visible switch are bright exactly if
it belongs to the current rig (rig up/down: always), and its label is dimmed exactly if they are not. -/
theorem C84_bright (as : List Act) (hex : ∀ a ∈ as, Configured a) (has : Supported as) (s0 : Sys) (h0 : Sys.init as = some s0)
    (id : Int) (hid : Valid id) (es : List Event) (n : Nat) (a : Act) (x : ActState) (ha : as[n]? = some a)
    (ht : ShowsTarget a) :
    let s := loopRun as s0 id es
    s.2.preselected = none → s.1.acts[n]? = some x → x.enabled = true →
    ∃ l c b, x.label = some l ∧ x.led = some ⟨c, b⟩ ∧ (b = true ↔ belongsTo a s.2.current) ∧
      ((∀ c k, a ≠ .rigChange c k) → l.dimmed = !b) := fun hd hx hen =>
  C83.bright as _ _ has (C83.run_inv as hex has s0 h0 id hid es) hd n a x ha hx hen ht

/-- C84. In every history as above, while a bank is preselected, the labels of all visible rig select switches are dimmed. -/
theorem C84_preselected (as : List Act) (hex : ∀ a ∈ as, Configured a) (has : Supported as) (s0 : Sys) (h0 : Sys.init as = some s0)
    (id : Int) (hid : Valid id) (es : List Event) (n : Nat) (c : RigSelect) (k : Look) (x : ActState)
    (ha : as[n]? = some (.rigSelect c k)) (b : Int) :
    let s := loopRun as s0 id es
    s.1.env.shared.preselectedBank = some b → s.1.acts[n]? = some x → x.enabled = true →
    ∃ l, x.label = some l ∧ l.dimmed = true := by
  intro s hp hx hen
  have h := C83.run_inv as hex has s0 h0 id hid es
  have hg := h.good n _ x ha hx
  obtain ⟨r1, r2, r3, r4⟩ := hg.right hen
  refine ⟨_, r2, ?_⟩
  unfold rigSelectLabel
  simp only [hg.value]
  split
  · show ((loopRun as s0 id es).1.env.shared.preselectedBank.isSome || _) = true
    simp only [s] at hp
    rw [hp]
    rfl
  · rfl

example : ∃ s, Sys.init exRigs = some s ∧
    (loopRun exRigs s 1 [.press 1]).1.env.shared.preselectedBank = some 1 ∧
    (loopRun exRigs s 1 [.press 1]).1.acts.map (fun x => x.label.map (·.dimmed)) = [some true, some true, some true, some true] :=
  ⟨_, rfl, by decide +kernel⟩

def brightOf (s : Sys) : List (Option Bool) := s.acts.map fun x => x.led.map (·.bright)

example : ∃ s, Sys.init exRigs = some s ∧
    brightOf (loopRun exRigs s 1 []).1 = [some true, some false, some false, some false] ∧
    brightOf (loopRun exRigs s 1 [.press 1, .release 1, .press 3]).1 = [some false, some true, some false, some true] ∧
    brightOf (loopRun exRigs s 1 [.press 2]).1 = [some false, some false, some true, some false] :=
  ⟨_, rfl, by decide +kernel⟩

/-! ### C85: bank up/down in preselect mode -/

/-- C85. When the device has reported its rig, a visible bank up/down switch in preselect mode (target mode, default colors) has the
color of the bank which a press preselects, and its text callback gets this bank and the current slot. -/
theorem C85_bank_change (as : List Act) (s : Sys) (v : Int) (hv : Valid v) (n : Nat) (c : BankChange) (k : Look)
    (f : Int → Int → String) (x : ActState) (ha : as[n]? = some (.bankChange c k)) (hc : c.preselect = true) (hn : 0 < c.numBanks)
    (ht : k.target = true) (hf : k.textCallback = some f) (h1 : k.color = none) (h2 : k.colorCallback = none) :
    let s' := (step as s (.value v)).1
    s'.acts[n]? = some x → x.enabled = true →
    ∃ b, 0 ≤ b ∧ b < c.numBanks ∧ (press as s' n).2 = [⟨47, b⟩] ∧ x.label = some ⟨f b (slotOf v), bankColor b, false⟩ ∧
      x.led.map (·.color) = some (bankColor b) ∧ b = (s.env.shared.preselectedBank.getD (bankOf v) + c.offset) % c.numBanks := by
  intro s' hx hen
  have hx' := hx
  simp only [s', step] at hx
  unfold receive at hx
  rw [C83.drawAll_get as _ _ n _ ha, List.getElem?_map] at hx
  obtain ⟨y, hy, rfl⟩ := Option.map_eq_some_iff.1 hx
  obtain ⟨z, hz, rfl⟩ := Option.map_eq_some_iff.1 hy
  have hze : z.enabled = true := by
    cases hze : z.enabled with
    | true => rfl
    | false =>
      unfold Act.display at hen
      simp only [hze, Bool.false_eq_true, if_false] at hen
  have hd : (Act.bankChange c k).display n s.env { z with sel := { z.sel with value := some v } } =
      ({ z with sel := { z.sel with value := some v } } : ActState).show (bankChangeLabel c k { z.sel with value := some v } s.env.shared)
        (bankChangeLed c k n { z.sel with value := some v } s.env) := by
    unfold Act.display
    simp only [hze, if_true]
    rfl
  have hshow := C83.show_led { z with sel := { z.sel with value := some v } } (bankChangeLabel c k { z.sel with value := some v } s.env.shared)
        (bankChangeLed c k n { z.sel with value := some v } s.env) hze
  obtain ⟨p1, p2, p3, p4⟩ := C45_preselect c hc hn { value := some v } s.env.shared { current := v } v hv.1 rfl 0
  have hb : c.nextBank s.env.shared v = (s.env.shared.preselectedBank.getD (bankOf v) + c.offset) % c.numBanks := by
    simp only [pressBankChange, BankChange.push, hc, if_true] at p3
    simp only [Option.some.injEq] at p3
    simpa using p3
  simp only [Int.natCast_zero, Int.zero_add, Int.one_mul] at p1 p2
  refine ⟨c.nextBank s.env.shared v, hb ▸ p1, hb ▸ p2, ?_, ?_, ?_, hb⟩
  · unfold press
    rw [ha, hx']
    have hval : ((Act.bankChange c k).display n s.env { z with sel := { z.sel with value := some v } }).state.value = some v := by
      rw [hd]; rfl
    simp only [hen, if_true]
    unfold BankChange.push
    simp only [hc, if_true, hval]
    rfl
  · rw [hd]
    show some (bankChangeLabel c k { z.sel with value := some v } s.env.shared) = _
    unfold bankChangeLabel bankChangeColor
    simp only [hf, ht, h1, h2, if_true]
    rfl
  · rw [hd, hshow]
    unfold bankChangeLed bankChangeColor
    simp only [ht, h1, h2, if_true, Option.map_some]

example : ∃ s, Sys.init [.bankChange { offset := 1, preselect := true } { textCallback := some fun b _ => toString (b + 1) }] = some s ∧
    textsOf (step [.bankChange { offset := 1, preselect := true } { textCallback := some fun b _ => toString (b + 1) }] s (.value 622)).1 = [some "1"] :=
  ⟨_, rfl, by decide +kernel⟩

/-! ### C86: hidden switches, updates and blinking -/

/-- C86. As long as no bank is preselected, updates change nothing. -/
theorem C86_quiet (as : List Act) (s : Sys) (n : Nat) (b : Bool) (h : s.env.shared.preselectedBank = none) :
    step as s (.tick n b) = (s, []) := by
  simp only [step, Prod.mk.injEq, and_true]
  unfold tick
  split
  · rename_i a x ha hx
    cases a <;> simp [h]
  · rfl

theorem C86.display_off (a : Act) (n : Nat) (e : Env) (x : ActState) (h : x.enabled = false) : a.display n e x = x := by
  unfold Act.display; rw [h]; rfl

theorem C86.draw_off (a : Act) (n : Nat) (e : Env) (x : ActState) (h : x.enabled = false) :
    (a.draw n e x).led = x.led ∧ (a.draw n e x).enabled = false := by
  have hs : ∀ (y : ActState) l d, y.enabled = false → (y.show l d).led = y.led ∧ (y.show l d).enabled = false := by
    intro y l d hy
    unfold ActState.show
    simp [hy]
  cases a with
  | rigSelect c k => exact hs _ _ _ h
  | bankSelect c k =>
    unfold Act.draw
    simp only
    split
    · exact hs _ _ _ h
    · split
      · exact ⟨rfl, h⟩
      · exact hs { x with cache := _ } _ _ h
  | bankChange c k => exact hs _ _ _ h
  | rigChange c k => exact hs _ _ _ h

theorem C86.drawAll_off (as : List Act) (e : Env) (ss : List ActState) (n : Nat) (x : ActState) (hx : ss[n]? = some x)
    (h : x.enabled = false) : (drawAll as e ss)[n]? = some x := by
  unfold drawAll
  rw [List.getElem?_mapIdx, hx]
  simp only [Option.map_some]
  split
  · rw [C86.display_off _ _ _ _ h]
  · rfl

/-- C86. The LEDs of an action which is not visible never change until it gets visible, and its label changes only by an update
of its own while a bank is preselected. -/
theorem C86_hidden_partial (as : List Act) (s : Sys) (e : Event) (n : Nat) (x : ActState) (hx : s.acts[n]? = some x)
    (hen : x.enabled = false) (he : e ≠ .enable n true) :
    ∃ y, (step as s e).1.acts[n]? = some y ∧ y.enabled = false ∧ y.led = x.led ∧
      (y.label = x.label ∨ (∃ b, e = .tick n b) ∧ s.env.shared.preselectedBank.isSome = true) := by
  have same : ∀ (m : Nat) (z : ActState), (m = n → z.enabled = false ∧ z.led = x.led ∧ z.label = x.label) →
      ∃ y, (s.acts.set m z)[n]? = some y ∧ y.enabled = false ∧ y.led = x.led ∧
      (y.label = x.label ∨ (∃ b, e = .tick n b) ∧ s.env.shared.preselectedBank.isSome = true) := by
    intro m z hm
    rw [List.getElem?_set]
    split
    · rename_i hmn
      have hlt : m < s.acts.length := by rw [hmn]; exact (List.getElem?_eq_some_iff.1 hx).1
      rw [if_pos hlt]
      exact ⟨z, rfl, (hm hmn).1, (hm hmn).2.1, .inl (hm hmn).2.2⟩
    · exact ⟨x, hx, hen, rfl, .inl rfl⟩
  have keep : ∃ y, s.acts[n]? = some y ∧ y.enabled = false ∧ y.led = x.led ∧
      (y.label = x.label ∨ (∃ b, e = .tick n b) ∧ s.env.shared.preselectedBank.isSome = true) := ⟨x, hx, hen, rfl, .inl rfl⟩
  cases e with
  | press m =>
    simp only [step]
    unfold press
    split
    · rename_i a z ha hz
      have hm : ∀ w : SelState, m = n → ({ z with sel := w } : ActState).enabled = false ∧ ({ z with sel := w } : ActState).led = x.led ∧
          ({ z with sel := w } : ActState).label = x.label := by
        intro w hmn
        rw [hmn, hx] at hz
        simp only [Option.some.injEq] at hz
        subst hz
        exact ⟨hen, rfl, rfl⟩
      split
      · cases a with
        | rigSelect c k => exact same m _ (hm _)
        | bankChange c k => exact keep
        | rigChange c k => exact same m _ (hm _)
        | bankSelect c k =>
          rw [List.getElem?_modify]
          have : ∀ e', (if z.sel.value.isSome = true then drawAll as e' s.acts else s.acts)[n]? = some x := by
            intro e'
            split
            · exact C86.drawAll_off as _ s.acts n x hx hen
            · exact hx
          rw [this]
          simp only
          refine ⟨_, rfl, ?_⟩
          split
          · exact ⟨hen, rfl, .inl rfl⟩
          · exact ⟨hen, rfl, .inl rfl⟩
      · exact keep
    · exact keep
  | release m =>
    simp only [step]
    unfold RigDisplay.release
    split
    · rename_i a z ha hz
      have hm : ∀ w : SelState, m = n → ({ z with sel := w } : ActState).enabled = false ∧ ({ z with sel := w } : ActState).led = x.led ∧
          ({ z with sel := w } : ActState).label = x.label := by
        intro w hmn
        rw [hmn, hx] at hz
        simp only [Option.some.injEq] at hz
        subst hz
        exact ⟨hen, rfl, rfl⟩
      cases a with
      | rigSelect c k => exact same m _ (hm _)
      | bankChange c k => exact keep
      | rigChange c k => exact same m _ (hm _)
      | bankSelect c k => exact same m _ (hm _)
    · exact keep
  | value v =>
    simp only [step]
    unfold receive
    rw [C86.drawAll_off as _ _ n { x with sel := { x.sel with value := some v } } (by rw [List.getElem?_map, hx]; rfl) hen]
    exact ⟨_, rfl, hen, rfl, .inl rfl⟩
  | tick m b =>
    by_cases hq : s.env.shared.preselectedBank = none
    · rw [C86_quiet as s m b hq]
      exact keep
    · have hsome : s.env.shared.preselectedBank.isSome = true := by
        cases h : s.env.shared.preselectedBank with
        | none => exact absurd h hq
        | some _ => rfl
      have draw : ∀ (a : Act) (z w : ActState) (e' : Env), s.acts[m]? = some z → w.enabled = z.enabled → w.led = z.led →
          ∃ y, (s.acts.set m (a.draw m e' w))[n]? = some y ∧ y.enabled = false ∧ y.led = x.led ∧
          (y.label = x.label ∨ (∃ b', Event.tick m b = .tick n b') ∧ s.env.shared.preselectedBank.isSome = true) := by
        intro a z w e' hz hw1 hw2
        rw [List.getElem?_set]
        split
        · rename_i hmn
          subst hmn
          have hlt := (List.getElem?_eq_some_iff.1 hx).1
          rw [if_pos hlt]
          rw [hx] at hz
          simp only [Option.some.injEq] at hz
          subst hz
          have := C86.draw_off a m e' w (hw1.trans hen)
          exact ⟨_, rfl, this.2, this.1.trans hw2, .inr ⟨⟨b, rfl⟩, hsome⟩⟩
        · exact ⟨x, hx, hen, rfl, .inl rfl⟩
      simp only [step]
      unfold tick
      split
      · rename_i a z ha hz
        cases a with
        | rigSelect c k =>
          simp only
          split
          · split
            · exact draw (.rigSelect c k) z _ _ hz rfl rfl
            · exact keep
          · exact keep
        | bankSelect c k =>
          simp only
          split
          · exact draw (.bankSelect c k) z z _ hz rfl rfl
          · exact keep
        | bankChange c k =>
          simp only
          split
          · exact draw (.bankChange c k) z z _ hz rfl rfl
          · exact keep
        | rigChange c k => exact keep
      · exact keep
  | reset m =>
    simp only [step]
    split
    · rename_i a z ha hz
      refine same m _ ?_
      intro hmn
      rw [hmn, hx] at hz
      simp only [Option.some.injEq] at hz
      subst hz
      cases a with
      | rigSelect c k => rw [Act.reset, C86.display_off _ _ _ _ hen]; exact ⟨hen, rfl, rfl⟩
      | bankChange c k => rw [Act.reset, C86.display_off _ _ _ _ hen]; exact ⟨hen, rfl, rfl⟩
      | rigChange c k => exact ⟨hen, rfl, rfl⟩
      | bankSelect c k => exact ⟨hen, rfl, rfl⟩
    · exact keep
  | enable m b =>
    simp only [step]
    split
    · rename_i a z ha hz
      split
      · exact keep
      · rename_i hb
        refine same m _ ?_
        intro hmn
        rw [hmn, hx] at hz
        simp only [Option.some.injEq] at hz
        subst hz
        rw [hen] at hb
        have hbt : b = true := by cases b <;> simp_all
        rw [hmn, hbt] at he
        exact absurd rfl he
    · exact keep

/-- C86 fails for labels: when both switches use the same display label, the hidden one (here a rig select switch of another
page) writes its text while a bank is preselected. -/
theorem C86_hidden_label : ∃ s, Sys.init [.rigSelect { rig := some 4 } {}, .bankSelect { bank := 5, preselect := true } {}] = some s ∧
    let as : List Act := [.rigSelect { rig := some 4 } {}, .bankSelect { bank := 5, preselect := true } {}]
    (textsOf (loopRun as s 0 [.enable 0 false, .press 1]).1)[0]? = some (some "Rig 1-4") ∧
    (textsOf (loopRun as s 0 [.enable 0 false, .press 1, .tick 0 true]).1)[0]? = some (some "Rig 5-4") :=
  ⟨_, rfl, by decide +kernel⟩

/-- The number of an action which blinks: the one which has preselected the bank. -/
def Blinks (a : Act) (n : Nat) (e : Env) : Prop :=
  match a with
  | .bankSelect c _ => c.preselect = true ∧ e.shared.preselectedBank = some (c.bank - 1)
  | .bankChange c _ => c.preselect = true ∧ e.shared.preselectedBank.isSome ∧ e.shared.preselectCallback = some n
  | _ => False

/-- C86. While a bank is preselected, each time the blink period is exceeded the action showing the preselection changes the blink
state, and when the rig select switches are updated next, their LEDs follow (in target and current mode): they are bright exactly in
the other phase. -/
theorem C86_blink (as : List Act) (s : Sys) (m n : Nat) (a : Act) (c : RigSelect) (k : Look) (z x : ActState) (b : Bool)
    (hmn : m ≠ n) (ha : as[m]? = some a) (hz : s.acts[m]? = some z) (hb : Blinks a m s.env)
    (hc : as[n]? = some (.rigSelect c k)) (hx : s.acts[n]? = some x) (hen : x.enabled = true) (v : Int) (hv : x.sel.value = some v)
    (hl : x.lastBlink ≠ some (!s.env.blink.getD false)) :
    let s1 := (step as s (.tick m true)).1
    let s2 := (step as s1 (.tick n b)).1
    s1.env.blink = some (!s.env.blink.getD false) ∧ s2.env = s1.env ∧ s1.env.shared = s.env.shared ∧
    ∃ y, s2.acts[n]? = some y ∧ y.led.map (·.bright) = some (s.env.blink.getD false) ∧ y.lastBlink = some (!s.env.blink.getD false) := by
  have hp : ∃ p, s.env.shared.preselectedBank = some p := by
    cases a with
    | bankSelect c k => exact ⟨_, hb.2⟩
    | bankChange c k => exact Option.isSome_iff_exists.1 hb.2.1
    | rigSelect c k => exact hb.elim
    | rigChange c k => exact hb.elim
  obtain ⟨p, hp⟩ := hp
  have h1 : ∃ w, tick as s m true = ⟨{ s.env with blink := some (!s.env.blink.getD false) }, s.acts.set m w⟩ := by
    unfold tick
    rw [ha, hz]
    cases a with
    | bankSelect c k =>
      simp only
      rw [if_pos ⟨hb.1, hb.2, trivial⟩]
      exact ⟨_, rfl⟩
    | bankChange c k =>
      simp only
      rw [if_pos ⟨hb.1, hb.2.1, hb.2.2, trivial⟩]
      exact ⟨_, rfl⟩
    | rigSelect c k => exact hb.elim
    | rigChange c k => exact hb.elim
  obtain ⟨w, h1⟩ := h1
  have hx1 : (s.acts.set m w)[n]? = some x := by rw [List.getElem?_set, if_neg hmn]; exact hx
  intro s1 s2
  have e1 : s1 = ⟨{ s.env with blink := some (!s.env.blink.getD false) }, s.acts.set m w⟩ := h1
  have e2 : s2 = ⟨s1.env, s1.acts.set n ((Act.rigSelect c k).draw n s1.env { x with lastBlink := some (!s.env.blink.getD false) })⟩ := by
    show tick as s1 n b = _
    unfold tick
    rw [hc, e1]
    simp only [hx1, hp]
    rw [if_pos hl]
  refine ⟨by rw [e1], by rw [e2], by rw [e1], ?_⟩
  refine ⟨_, by rw [e2]; simp only; rw [List.getElem?_set, if_pos rfl, if_pos]; rw [e1]; exact (List.getElem?_eq_some_iff.1 hx1).1, ?_, rfl⟩
  have hl := C83.show_led { x with lastBlink := some (!s.env.blink.getD false), sel := c.updateDisplays x.sel }
    (rigSelectLabel c k (c.updateDisplays x.sel) s1.env.shared) (rigSelectLed c k (c.updateDisplays x.sel) s1.env) hen
  refine (congrArg (Option.map (·.bright)) hl).trans ?_
  unfold rigSelectLed
  rw [C83.updateDisplays_value, hv, e1]
  simp only [hp, Option.map_some, Bool.not_not]

/-- The hypotheses can be met: twice in a row. -/
example : ∃ s, Sys.init exRigs = some s ∧
    brightOf (loopRun exRigs s 1 [.press 1, .tick 1 true, .tick 0 true, .tick 3 true]).1 = [some false, some true, some false, some false] ∧
    brightOf (loopRun exRigs s 1 [.press 1, .tick 1 true, .tick 0 true, .tick 3 true, .tick 1 true, .tick 0 false, .tick 3 false]).1 =
      [some true, some false, some false, some true] :=
  ⟨_, rfl, by decide +kernel⟩

end PySwitch.Props
