import Verif.Lemmas.Synced

/-
C114: when nothing is under way, PySwitch and the device have the same value.
-/
namespace PySwitch.Props
open PySwitch.Wire PySwitch.Mapping PySwitch.Kemper.Virtual PySwitch.Kemper.Protocol PySwitch.Kemper.Synced
open PySwitch.Client.Spec PySwitch.Kemper.Synced.Spec

/-- PySwitch and the device are switched on at the time `now`; `f` are the mappings and `params` the
parameters of the device. -/
def synced (f : Nat → Mapping) (L : Nat) (cb : Nat → Bool) (lease : Nat) (tuner : Bool) (now : Int)
    (params : List Param) : Sys :=
  { py := ⟨Client.initial f L cb, Kemper.Protocol.initial lease tuner now⟩, dev := Kemper.Virtual.initial 2 now, params := params }

/-- C114: PySwitch and the device are switched on, and anything allowed happens until the parameter `mid` is
registered and the device gets the next message asking for all values. Then again anything allowed happens in
any order, as long as the device keeps the connection: the parameter is set by PySwitch or changed at the
device, several changes may overlap on the cables, the connection may be lost and found by PySwitch, other
parameters are used. Whenever there is no value of the parameter on the cable to PySwitch, and on the cable to
the device neither a message setting the parameter nor one asking for all values, both sides have the same value
of the parameter. -/
theorem C114_agree (P : Client.Protocol) (f : Nat → Mapping) (L : Nat) (cb : Nat → Bool) (lease : Nat) (tuner : Bool)
    (t₀ : Int) (params : List Param) (page number i mid : Nat) (setter : Msg)
    (hk : Known page number params i)
    (htwo : (f mid).twoPart = false) (htype : (f mid).type = .numeric)
    (hresp : (f mid).response = .one (template page number))
    (hsetter : (f mid).set = .one setter) (hsettable : Settable setter)
    (h₁ h₂ : List (Int × Ev))
    (ha₁ : ∀ x ∈ h₁, Allowed page number params i mid setter x.2)
    (ha₂ : ∀ x ∈ h₂, Allowed page number params i mid setter x.2)
    (s s₁ s' : Sys) (hr₁ : run P (synced f L cb lease tuner t₀ params) h₁ = .ok s)
    (r : Client.Req) (hent : entry s.py.client mid = some r) (hperm : r.lifetime = none)
    (b : List Nat) (rest : List (List Nat)) (hcable : s.toDev = b :: rest) (hinit : Init b)
    (now : Int) (hr : step P s now .devReceive = .ok s₁)
    (hhealthy : Along P (Healthy i) s₁ h₂) (hr₂ : run P s₁ h₂ = .ok s')
    (hpy : ∀ b ∈ s'.toPy, ¬Answering page number b)
    (hdev : ∀ b ∈ s'.toDev, ¬Init b ∧ ∀ v, ¬Takes params i b v) :
    ∃ n, deviceValue s' i = some (.num n) ∧ (s'.py.client.mappings mid).value = some (.num n) := by
  obtain ⟨q, n₀, q1, q2, q3, q4, q5⟩ := hk.param
  have hgood : Good page number params i n₀ :=
    ⟨hk.page7, hk.number7, ⟨q, q1, q2, q3, q4, q5⟩, fun j p hj hp data hd => .inr (hk.others j p hj hp data hd)⟩
  have h0 : Sound page number params i mid setter (synced f L cb lease tuner t₀ params) :=
    ⟨⟨Client.wf_initial f L cb, htwo, htype, hresp, ⟨setter, hsetter, hsettable, fun _ => rfl⟩⟩, ⟨n₀, hgood⟩, .refl _,
      by simp [synced], rfl⟩
  have hs := sound_run P h₁ _ s h0 ha₁ hr₁
  have hs1 := (sound_step hs P now .devReceive trivial hr).1
  obtain ⟨j, -, hj, hm⟩ := entry_some hent
  have hmem := List.mem_of_getElem? hj
  obtain ⟨n, hg⟩ := hs.good
  obtain ⟨-, n', e2, -, -, e5, -⟩ := receive_effect hg s.dev hs.product now b (hs.ended b (by simp [hcable]))
  simp only [Kemper.Synced.step, hcable, Except.ok.injEq] at hr
  have ht : Track page number params i mid s₁ n' := by
    refine .inr (.inl ?_)
    rw [← hr]
    exact (e5 hinit).prepend
  obtain ⟨-, m, g1, g2⟩ := track_run P h₂ s₁ s' hs1 ⟨r, by rw [← hr]; exact hmem, hm, hperm⟩ ha₂ hhealthy
    ⟨n', by rw [← hr]; exact e2, ht⟩ hr₂
  obtain ⟨q', p1, -, -, p4, -⟩ := g1.param
  refine ⟨m, by simp [deviceValue, p1, p4], ?_⟩
  rcases g2 with ⟨b', k1, k2⟩ | ⟨pre, post, k1, k2⟩ | ⟨k1, k2 | ⟨b', k2, v, k3, -⟩⟩
  · exact absurd k2 (hdev b' k1).1
  · obtain ⟨-, hn⟩ := healthy_good (track_run P h₂ s₁ s' hs1 ⟨r, by rw [← hr]; exact hmem, hm, hperm⟩ ha₂ hhealthy
      ⟨n', by rw [← hr]; exact e2, ht⟩ hr₂).1 g1
    exact absurd ⟨_, ans_parse page number m g1.p7 g1.n7 hn, rfl, rfl⟩ (hpy _ (by rw [k1]; simp))
  · exact k2
  · exact absurd k3 ((hdev b' k2).2 v)

/-- C114: in particular this holds if both cables are empty. -/
theorem C114_empty (P : Client.Protocol) (f : Nat → Mapping) (L : Nat) (cb : Nat → Bool) (lease : Nat) (tuner : Bool)
    (t₀ : Int) (params : List Param) (page number i mid : Nat) (setter : Msg)
    (hk : Known page number params i)
    (htwo : (f mid).twoPart = false) (htype : (f mid).type = .numeric)
    (hresp : (f mid).response = .one (template page number))
    (hsetter : (f mid).set = .one setter) (hsettable : Settable setter)
    (h₁ h₂ : List (Int × Ev))
    (ha₁ : ∀ x ∈ h₁, Allowed page number params i mid setter x.2)
    (ha₂ : ∀ x ∈ h₂, Allowed page number params i mid setter x.2)
    (s s₁ s' : Sys) (hr₁ : run P (synced f L cb lease tuner t₀ params) h₁ = .ok s)
    (r : Client.Req) (hent : entry s.py.client mid = some r) (hperm : r.lifetime = none)
    (b : List Nat) (rest : List (List Nat)) (hcable : s.toDev = b :: rest) (hinit : Init b)
    (now : Int) (hr : step P s now .devReceive = .ok s₁)
    (hhealthy : Along P (Healthy i) s₁ h₂) (hr₂ : run P s₁ h₂ = .ok s')
    (hpy : s'.toPy = []) (hdev : s'.toDev = []) :
    ∃ n, deviceValue s' i = some (.num n) ∧ (s'.py.client.mappings mid).value = some (.num n) :=
  C114_agree P f L cb lease tuner t₀ params page number i mid setter hk htwo htype hresp hsetter hsettable h₁ h₂ ha₁ ha₂
    s s₁ s' hr₁ r hent hperm b rest hcable hinit now hr hhealthy hr₂ (by simp [hpy]) (by simp [hdev])

/-- C114: which messages the device understands. A numeric parameter with the NRPN address `page`, `number` takes each
value PySwitch sets with this address, if no parameter before it listens to the same address. -/
theorem C114_understood_nrpn (params : List Param) (i page number v : Nat) (q : Param) (n : Nat)
    (hearlier : ∀ j, j < i → ∀ p, params[j]? = some p → ∀ d, .nrpn d ∈ p.receive → d.length = 2 ∧ d ≠ [page, number])
    (hq : params[i]? = some q) (hnum : q.value = .num n) (hkey : .nrpn [page, number] ∈ q.receive)
    (hlen : ∀ d, .nrpn d ∈ q.receive → d.length = 2) :
    Takes params i (toBytes 0 (valued v (.sysex [0, 32, 51] [2, 127, 1, 0, page, number]))) v := by
  have hb : toBytes 0 (valued v (.sysex [0, 32, 51] [2, 127, 1, 0, page, number])) =
      [240, 0, 32, 51, 2, 127, 1, 0, page, number, v / 128, v % 128, 247] := by simp [toBytes, valued]
  rw [hb]
  have key (w : PVal) (k : Key) (hk : ∀ d, k = .nrpn d → d.length = 2) :
      hitKey 2 w [240, 0, 32, 51, 2, 127, 1, 0, page, number, v / 128, v % 128, 247] k = none ∨
      (k = .nrpn [page, number] ∧ ∀ m, w = .num m →
        hitKey 2 w [240, 0, 32, 51, 2, 127, 1, 0, page, number, v / 128, v % 128, 247] k = some (.set (.num v))) := by
    match k with
    | .cc c s => left; simp [hitKey]
    | .pc => left; simp [hitKey]
    | .nrpn d =>
      match d, hk d rfl with
      | [a, b], _ =>
        by_cases hab : [a, b] = [page, number]
        · right
          refine ⟨by rw [hab], fun m hm => ?_⟩
          simp at hab
          obtain ⟨rfl, rfl⟩ := hab
          subst hm
          simp [hitKey, requestCode, setCode, evaluate, slice]
          omega
        · left
          have : ¬(page = a ∧ number = b) := by
            rintro ⟨rfl, rfl⟩; exact hab rfl
          cases w <;> simp [hitKey, requestCode, setCode] <;> exact fun h h' => this ⟨h, h'⟩
  refine ⟨?_, q, hq, ?_⟩
  · intro j hj p hp
    simp only [Param.hit, List.findSome?_eq_none_iff]
    intro k hk
    rcases key p.value k (fun d hd => (hearlier j hj p hp d (hd ▸ hk)).1) with h | ⟨h, -⟩
    · exact h
    · exact absurd rfl (hearlier j hj p hp _ (h ▸ hk)).2
  · rw [Param.hit, hnum]
    have hall : ∀ k ∈ q.receive, hitKey 2 (.num n) [240, 0, 32, 51, 2, 127, 1, 0, page, number, v / 128, v % 128, 247] k = none ∨
        hitKey 2 (.num n) [240, 0, 32, 51, 2, 127, 1, 0, page, number, v / 128, v % 128, 247] k = some (.set (.num v)) := by
      intro k hk
      rcases key (.num n) k (fun d hd => hlen d (hd ▸ hk)) with h | ⟨-, h⟩
      · exact .inl h
      · exact .inr (h n rfl)
    cases hf : q.receive.findSome? (hitKey 2 (.num n) [240, 0, 32, 51, 2, 127, 1, 0, page, number, v / 128, v % 128, 247]) with
    | none =>
      rw [List.findSome?_eq_none_iff] at hf
      have h := hf _ hkey
      simp [hitKey, requestCode, setCode] at h
    | some h =>
      obtain ⟨k, hk, hk'⟩ := List.exists_of_findSome?_eq_some hf
      rcases hall k hk with h' | h'
      · rw [h'] at hk'; simp at hk'
      · rw [← hk', h']

/-- C114: the same for a parameter which is set by a control change message (without scale). -/
theorem C114_understood_cc (params : List Param) (i c v : Nat) (q : Param)
    (hearlier : ∀ j, j < i → ∀ p, params[j]? = some p → ∀ scale, .cc c scale ∉ p.receive)
    (hq : params[i]? = some q) (hkey : .cc c none ∈ q.receive) (hscale : ∀ k, .cc c (some k) ∉ q.receive) :
    Takes params i (toBytes 0 (valued v (.cc c 0 none))) v := by
  have hb : toBytes 0 (valued v (.cc c 0 none)) = [176, c, v] := by simp [toBytes, valued]
  rw [hb]
  have key (w : PVal) (k : Key) : hitKey 2 w [176, c, v] k = none ∨ ∃ s, k = .cc c s := by
    match k with
    | .cc c' s =>
      by_cases h : c = c'
      · exact .inr ⟨s, by rw [h]⟩
      · left; simp [hitKey, h]
    | .pc => left; simp [hitKey]
    | .nrpn d =>
      left
      rw [hitKey, if_neg, if_neg] <;> (intro h; have := congrArg List.head? h; simp [List.head?_take] at this)
  refine ⟨?_, q, hq, ?_⟩
  · intro j hj p hp
    simp only [Param.hit, List.findSome?_eq_none_iff]
    intro k hk
    rcases key p.value k with h | ⟨s, h⟩
    · exact h
    · exact absurd (h ▸ hk) (hearlier j hj p hp s)
  · rw [Param.hit]
    cases hf : q.receive.findSome? (hitKey 2 q.value [176, c, v]) with
    | none =>
      rw [List.findSome?_eq_none_iff] at hf
      have h := hf _ hkey
      simp [hitKey] at h
    | some h =>
      obtain ⟨k, hk, hk'⟩ := List.exists_of_findSome?_eq_some hf
      rcases key q.value k with h' | ⟨s, h'⟩
      · rw [h'] at hk'; simp at hk'
      · subst h'
        cases s with
        | none => rw [← hk']; simp [hitKey]
        | some s => exact absurd hk (hscale s)

-- a parameter behind others which listen to other addresses and controllers
example (v : Nat) : Takes [⟨none, [.cc 16 none, .pc], .num 0, [], false⟩, ⟨some (.nrpn [50, 3]), [.cc 17 none, .nrpn [50, 3]], .num 1, [2], false⟩] 1
    (toBytes 0 (valued v (.cc 17 0 none))) v := by
  refine C114_understood_cc _ 1 17 v _ ?_ rfl (by simp) (by simp)
  intro j hj p hp
  obtain rfl : j = 0 := by omega
  simp at hp
  subst hp
  simp

example (v : Nat) : Takes [⟨none, [.nrpn [50, 4], .cc 16 none], .str [], [], false⟩,
      ⟨some (.nrpn [50, 3]), [.cc 17 none, .nrpn [50, 3]], .num 1, [2], false⟩] 1
    (toBytes 0 (valued v (.sysex [0, 32, 51] [2, 127, 1, 0, 50, 3]))) v := by
  refine C114_understood_nrpn _ 1 50 3 v _ 1 ?_ rfl rfl (by simp) (by simp)
  intro j hj p hp
  obtain rfl : j = 0 := by omega
  simp at hp
  subst hp
  simp

namespace C114

/-- The on/off state of effect slot A (set by CC 17, answered by NRPN), as PySwitch sees it. -/
def mappings : Nat → Mapping := fun _ =>
  { set := .one (.cc 17 0 none), request := .one (.sysex [0, 32, 51] [2, 127, 65, 0, 50, 3]), response := .one (template 50 3) }

/-- The same parameter at the device, behind the rig volume. -/
def params : List Param :=
  [⟨some (.nrpn [4, 1]), [.nrpn [4, 1]], .num 8192, [2], false⟩,
   ⟨some (.nrpn [50, 3]), [.cc 17 none, .nrpn [50, 3]], .num 1, [2], false⟩]

theorem known : Known 50 3 params 1 := by
  refine ⟨by decide, by decide, ⟨_, 1, rfl, rfl, by simp, rfl, by simp⟩, ?_⟩
  intro j q hj hq data hd
  match j, hj with
  | 0, _ =>
    simp [params] at hq
    subst hq
    simp at hd
    subst hd
    simp
  | j + 2, _ => simp [params] at hq

theorem takes (v : Nat) : Takes params 1 (toBytes 0 (valued v (.cc 17 0 none))) v := by
  refine ⟨?_, _, rfl, ?_⟩
  · intro j hj q hq
    have : j = 0 := by omega
    subst this
    simp [params] at hq
    subst hq
    simp [Param.hit, hitKey, valued, toBytes, requestCode, setCode]
  · simp [Param.hit, hitKey, valued, toBytes]

/-- With (`fb`) or without local feedback. -/
def P (fb : Bool) : Client.Protocol := ⟨fun _ => true, fun _ => fb⟩

def h₁ : List (Int × Ev) := [(0, .py (.register 7 (some 1))), (5001, .py .update)]

/-- The parameter is set to 0 by PySwitch and to 5 at the device at the same time, twice by PySwitch before the
device takes the messages, and the rig volume is changed. -/
def h₂ : List (Int × Ev) := [(5003, .pyReceive), (5004, .pyReceive), (5005, .py (.set 7 (.one 0))), (5006, .devSet 1 (.num 5)),
  (5007, .devReceive), (5008, .pyReceive), (5009, .py (.set 7 (.one 1))), (5010, .py (.set 7 (.one 0))), (5011, .devSet 0 (.num 77)),
  (5600, .devUpdate), (5601, .pyReceive), (5602, .devReceive), (5603, .devReceive), (5604, .pyReceive), (5605, .pyReceive), (5606, .pyReceive),
  (5607, .pyReceive)]

/-- What can be seen of a history. -/
def view (x : Except PyErr Sys) : Option (Option Val × Option PVal × List (List Nat) × List (List Nat)) :=
  match x with
  | .error _ => none
  | .ok s => some ((s.py.client.mappings 7).value, deviceValue s 1, s.toDev, s.toPy)

/-- `Healthy` and `Along` as tests. -/
def healthy (s : Sys) : Bool :=
  decide (s.dev.parameterSet = some 2) && match deviceValue s 1 with
    | some (.num n) => decide (n < 16384)
    | _ => false

def along (P : Client.Protocol) : Sys → List (Int × Ev) → Bool
  | s, [] => healthy s
  | s, (now, e) :: es => healthy s && match Kemper.Synced.step P s now e with
      | .error _ => true
      | .ok s' => along P s' es

theorem healthy_iff (s : Sys) (h : healthy s = true) : Healthy 1 s := by
  simp only [healthy, Bool.and_eq_true, decide_eq_true_eq] at h
  refine ⟨h.1, ?_⟩
  have := h.2
  split at this
  · rename_i n hn
    exact ⟨n, hn, by simpa using this⟩
  · simp at this

theorem along_iff (P : Client.Protocol) (h : List (Int × Ev)) (s : Sys) (hl : along P s h = true) :
    Along P (Healthy 1) s h := by
  induction h generalizing s with
  | nil => exact healthy_iff s hl
  | cons x h ih =>
    obtain ⟨now, e⟩ := x
    simp only [along, Bool.and_eq_true] at hl
    refine ⟨healthy_iff s hl.1, ?_⟩
    have := hl.2
    split at this
    · rename_i h'; rw [h']; trivial
    · rename_i s' h'; rw [h']; exact ih s' this

theorem allowed (h : List (Int × Ev)) (hh : h = h₁ ∨ h = h₂) :
    ∀ x ∈ h, Allowed 50 3 params 1 7 (.cc 17 0 none) x.2 := by
  intro x hx
  rcases hh with rfl | rfl
  · simp only [h₁, List.mem_cons, List.not_mem_nil, or_false] at hx
    rcases hx with rfl | rfl <;> trivial
  · simp only [h₂, List.mem_cons, List.not_mem_nil, or_false] at hx
    rcases hx with rfl | rfl | rfl | rfl | rfl | rfl | rfl | rfl | rfl | rfl | rfl | rfl | rfl | rfl | rfl | rfl | rfl <;>
      first | trivial | exact fun _ => ⟨_, rfl, by decide, takes _⟩

/-- The state after a history, for the examples. -/
def after (x : Except PyErr Sys) : Sys :=
  match x with
  | .ok s => s
  | .error _ => { py := ⟨Client.initial mappings 0 (fun _ => true), Kemper.Protocol.initial 0 false 0⟩, dev := Kemper.Virtual.initial 0 0, params := [] }

def start : Sys := synced mappings 2000 (fun _ => true) 30 false 0 params

def isOk (x : Except PyErr Sys) : Bool := match x with | .ok _ => true | .error _ => false

theorem after_eq (x : Except PyErr Sys) (h : isOk x = true) : x = .ok (after x) := by
  cases x with
  | ok s => rfl
  | error e => simp [isOk] at h

end C114

-- all of it happens: with and without local feedback
open C114 in
example (fb : Bool) : ∃ n, deviceValue (after (run (P fb) (after (Kemper.Synced.step (P fb) (after (run (P fb) start h₁)) 5002 .devReceive)) h₂)) 1 =
      some (.num n) ∧
    ((after (run (P fb) (after (Kemper.Synced.step (P fb) (after (run (P fb) start h₁)) 5002 .devReceive)) h₂)).py.client.mappings 7).value =
      some (.num n) := by
  refine C114_empty (P fb) mappings 2000 (fun _ => true) 30 false 0 params 50 3 1 7 (.cc 17 0 none) known rfl rfl rfl rfl
    trivial h₁ h₂ (allowed _ (.inl rfl)) (allowed _ (.inr rfl)) (after (run (P fb) start h₁)) _ _
    (after_eq _ ?_) ⟨7, some [.ext 1], none⟩ ?_ rfl [240, 0, 32, 51, 2, 127, 126, 0, 64, 2, 3, 15, 247] [] ?_ ⟨3, 15, rfl, rfl⟩ 5002
    (after_eq _ ?_) (along_iff _ _ _ ?_) (after_eq _ ?_) ?_ ?_ <;> revert fb <;> decide +kernel

-- and this is what it looks like: at the end both have 0, in between they differ
example : C114.view (run (C114.P true) C114.start (C114.h₁ ++ [(5002, .devReceive)] ++ C114.h₂.take 5)) =
    some (some (.num 0), some (.num 0), [], [[240, 0, 32, 51, 0, 0, 1, 0, 50, 3, 0, 5, 247], [240, 0, 32, 51, 0, 0, 1, 0, 50, 3, 0, 0, 247]]) := by
  decide +kernel

example : C114.view (run (C114.P true) C114.start (C114.h₁ ++ [(5002, .devReceive)] ++ C114.h₂.take 6)) =
    some (some (.num 5), some (.num 0), [], [[240, 0, 32, 51, 0, 0, 1, 0, 50, 3, 0, 0, 247]]) := by
  decide +kernel

example : C114.view (run (C114.P true) C114.start (C114.h₁ ++ [(5002, .devReceive)] ++ C114.h₂)) =
    some (some (.num 0), some (.num 0), [], []) := by
  decide +kernel

end PySwitch.Props
