import Verif.Spec.Versions
/-! C195: several versions on one web server. -/

namespace PySwitch.Props
open PySwitch PySwitch.Versions PySwitch.Spec.Versions

namespace C195

theorem insert_perm (a : Version) (l : List Version) : (Versions.insert a l).Perm (a :: l) := by
  induction l with
  | nil => exact .refl _
  | cons b l ih =>
    unfold Versions.insert
    split
    · exact .refl _
    · exact (ih.cons b).trans (.swap a b l)

theorem sort_perm (l : List Version) : (Versions.sort l).Perm l := by
  induction l with
  | nil => exact .refl _
  | cons a l ih => exact (insert_perm a _).trans (ih.cons a)

theorem insert_sorted (a : Version) (l : List Version) (h : l.Pairwise fun x y => y.mtime ≤ x.mtime) :
    (Versions.insert a l).Pairwise fun x y => y.mtime ≤ x.mtime := by
  induction l with
  | nil => simp [Versions.insert]
  | cons b l ih =>
    rw [List.pairwise_cons] at h
    unfold Versions.insert
    split
    · rename_i hc
      rw [List.pairwise_cons, List.pairwise_cons]
      refine ⟨?_, h⟩
      intro y hy
      rcases List.mem_cons.mp hy with rfl | hy
      · omega
      · have := h.1 y hy; omega
    · rename_i hc
      rw [List.pairwise_cons]
      refine ⟨?_, ih h.2⟩
      intro y hy
      rcases List.mem_cons.mp ((insert_perm a l).mem_iff.mp hy) with rfl | hy
      · omega
      · exact h.1 y hy

theorem sort_sorted (l : List Version) : (Versions.sort l).Pairwise fun x y => y.mtime ≤ x.mtime := by
  induction l with
  | nil => exact .nil
  | cons a l ih => exact insert_sorted a _ ih

/-- A text matches itself as a pattern. -/
theorem matchHere_self (p rest : Text) : matchHere p (p ++ rest) = true := by
  induction p with
  | nil => simp [matchHere]
  | cons c p ih => simp [matchHere, ih]

theorem found_here (p t : Text) (h : matchHere p t = true) : found p t = true := by
  cases t with
  | nil => exact h
  | cons c t => simp [found, h]

theorem found_append (p a t : Text) (h : found p t = true) : found p (a ++ t) = true := by
  induction a with
  | nil => exact h
  | cons c a ih => simp [found, ih]

theorem found_self (p a b : Text) : found p (a ++ p ++ b) = true := by
  rw [List.append_assoc]
  exact found_append p a _ (found_here p _ (matchHere_self p b))

/-- A pattern is only found where there is a text it stands for. -/
theorem here_like (p t : Text) (h : matchHere p t = true) : ∃ q b, t = q ++ b ∧ Like p q := by
  induction p generalizing t with
  | nil => exact ⟨[], t, rfl, rfl, by simp⟩
  | cons c p ih =>
    cases t with
    | nil => simp [matchHere] at h
    | cons d t =>
      simp only [matchHere, Bool.and_eq_true, Bool.or_eq_true, beq_iff_eq] at h
      obtain ⟨q, b, rfl, hl, hk⟩ := ih t h.2
      refine ⟨d :: q, b, rfl, by simp [hl], ?_⟩
      intro k x y hx hy
      cases k with
      | zero => simp only [List.getElem?_cons_zero, Option.some.injEq] at hx hy; subst hx hy; exact h.1
      | succ k => simp only [List.getElem?_cons_succ] at hx hy; exact hk k x y hx hy

theorem like_plain (p q : Text) (hp : '.' ∉ p) (h : Like p q) : p = q := by
  obtain ⟨hl, hk⟩ := h
  refine List.ext_getElem hl fun k h1 h2 => ?_
  rcases hk k p[k] q[k] (by simp [h1]) (by simp [h2]) with h | h
  · exact absurd (h ▸ List.getElem_mem h1) hp
  · exact h

theorem found_like (p t : Text) (h : found p t = true) : ∃ q, Like p q ∧ Contains q t := by
  induction t with
  | nil => obtain ⟨q, b, hb, hl⟩ := here_like p [] h; exact ⟨q, hl, [], b, by simpa using hb⟩
  | cons c t ih =>
    simp only [found, Bool.or_eq_true] at h
    rcases h with h | h
    · obtain ⟨q, b, hb, hl⟩ := here_like p _ h; exact ⟨q, hl, [], b, by simpa using hb⟩
    · obtain ⟨q, hl, a, b, rfl⟩ := ih h; exact ⟨q, hl, c :: a, b, rfl⟩

theorem like_here (p q b : Text) (h : Like p q) : matchHere p (q ++ b) = true := by
  induction p generalizing q with
  | nil => simp [matchHere]
  | cons c p ih =>
    obtain ⟨hl, hk⟩ := h
    cases q with
    | nil => simp at hl
    | cons d q =>
      simp only [List.cons_append, matchHere, Bool.and_eq_true, Bool.or_eq_true, beq_iff_eq]
      refine ⟨hk 0 c d rfl rfl, ih q ⟨by simpa using hl, fun k x y hx hy => hk (k + 1) x y (by simpa using hx) (by simpa using hy)⟩⟩

theorem like_self (p : Text) : Like p p := ⟨rfl, fun _ _ _ hx hy => .inr (Option.some.inj (hx.symm.trans hy))⟩

theorem like_found (p q t : Text) (h : Like p q) (hc : Contains q t) : found p t = true := by
  obtain ⟨a, b, rfl⟩ := hc
  rw [List.append_assoc]
  exact found_append p a _ (found_here p _ (like_here p q b h))

theorem rules_some {vs : List Version} {r : Rules} (h : rules vs = some r) :
    ∃ v rest, vs = v :: rest ∧ r = ⟨"/versions".toList :: vs.map (fun w => w.name ++ htdocs), v.name⟩ := by
  cases vs with
  | nil => simp [rules] at h
  | cons v rest =>
    simp only [rules, Option.some.injEq] at h
    exact ⟨v, rest, rfl, h.symm⟩

theorem direct (vs : List Version) (r : Rules) (h : rules vs = some r) (v : Version) (hv : v ∈ vs) (a b : Text) :
    rewrite r (a ++ (v.name ++ htdocs) ++ b) = none := by
  obtain ⟨w, rest, _, rfl⟩ := rules_some h
  unfold rewrite
  rw [if_pos]
  rw [List.any_eq_true]
  exact ⟨v.name ++ htdocs, List.mem_cons_of_mem _ (List.mem_map.mpr ⟨v, hv, rfl⟩), found_self _ a b⟩

theorem root_eq (name : Text) : root name = ['/'] ++ (name ++ htdocs) :=
  List.append_assoc ['/'] name htdocs

end C195

/-- C195. The list has exactly the folders of the web root which are versions, the newest first. -/
theorem C195_listed (nodes : List Node) :
    (∀ v, v ∈ getVersions nodes ↔ ∃ n ∈ nodes, n.isDir = true ∧ n.isDot = false ∧ ¬ "versions".toList <+: n.name ∧ v = ⟨n.name, n.mtime⟩) ∧
    (getVersions nodes).Pairwise (fun x y => y.mtime ≤ x.mtime) ∧
    (getVersions nodes).length = (nodes.filter fun n => n.isDir && !n.isDot && !"versions".toList.isPrefixOf n.name).length := by
  refine ⟨?_, C195.sort_sorted _, ?_⟩
  · intro v
    unfold getVersions
    rw [(C195.sort_perm _).mem_iff, List.mem_map]
    constructor
    · rintro ⟨n, hn, rfl⟩
      obtain ⟨h1, h2⟩ := List.mem_filter.mp hn
      simp only [isVersion, Bool.not_eq_true', Bool.or_eq_false_iff, Bool.not_eq_false'] at h2
      refine ⟨n, h1, h2.1.1, h2.1.2, ?_, rfl⟩
      intro hp
      rw [List.isPrefixOf_iff_prefix.mpr hp] at h2
      exact absurd h2.2 (by simp)
    · rintro ⟨n, hn, h1, h2, h3, rfl⟩
      refine ⟨n, List.mem_filter.mpr ⟨hn, ?_⟩, rfl⟩
      have : "versions".toList.isPrefixOf n.name = false := by
        cases hq : "versions".toList.isPrefixOf n.name with
        | false => rfl
        | true => exact absurd (List.isPrefixOf_iff_prefix.mp hq) h3
      simp only [isVersion, h1, h2, this]; rfl
  · unfold getVersions
    rw [(C195.sort_perm _).length_eq, List.length_map]
    congr 2
    funext n
    simp only [isVersion, Bool.not_or, Bool.not_not]

/-- C195. A file of a version which is called directly is served as it is. Missing: the links on the page of the versions, see `C195_link_witness`. -/
theorem C195_direct_partial (vs : List Version) (r : Rules) (h : rules vs = some r) (v : Version) (hv : v ∈ vs) (path : Text) (n : Nat) :
    serve r (n + 1) (root v.name ++ path) = some (root v.name ++ path) := by
  unfold serve
  rw [C195.root_eq, C195.direct vs r h v hv ['/'] path]

/-- C195. Whatever is requested, the rule is applied once at most: the web server does not go round in circles. -/
theorem C195_no_loop (vs : List Version) (r : Rules) (h : rules vs = some r) (uri : Text) (n : Nat) :
    ∃ u, serve r (n + 2) uri = some u ∧ (u = uri ∨ rewrite r uri = some u) := by
  unfold serve
  cases hr : rewrite r uri with
  | none => exact ⟨uri, rfl, .inl rfl⟩
  | some u =>
    refine ⟨u, ?_, .inr rfl⟩
    obtain ⟨v, rest, hvs, hrr⟩ := C195.rules_some h
    have hu : u = ['/'] ++ (v.name ++ htdocs) ++ uri.drop 1 := by
      unfold rewrite at hr
      split at hr
      · cases hr
      · simp only [Option.some.injEq] at hr
        rw [← hr, hrr]
        simp only [List.cons_append, List.nil_append]
    have hd := C195.direct vs r h v (by rw [hvs]; simp) ['/'] (uri.drop 1)
    rw [← hu] at hd
    simp only [serve, hd]

/-- C195. The rule applies to all requests which are not meant for something else. -/
theorem C195_applies (vs : List Version) (r : Rules) (h : rules vs = some r) (uri : Text) : rewrite r uri = none ↔ Special vs uri := by
  obtain ⟨v, rest, hvs, hrr⟩ := C195.rules_some h
  constructor
  · intro hr
    unfold rewrite at hr
    split at hr
    · rename_i hc
      rw [hrr, List.any_eq_true] at hc
      obtain ⟨p, hp, hf⟩ := hc
      obtain ⟨q, hl, hq⟩ := C195.found_like _ _ hf
      rcases List.mem_cons.mp hp with rfl | hp
      · left
        rwa [C195.like_plain "/versions".toList q (by decide) hl]
      · obtain ⟨w, hw, rfl⟩ := List.mem_map.mp hp
        exact .inr ⟨w, hw, q, hl, hq⟩
    · cases hr
  · intro hs
    unfold rewrite
    rw [if_pos]
    rw [hrr, List.any_eq_true]
    rcases hs with hs | ⟨w, hw, q, hl, hq⟩
    · exact ⟨_, List.mem_cons_self, C195.like_found _ _ _ (C195.like_self _) hs⟩
    · exact ⟨_, List.mem_cons_of_mem _ (List.mem_map.mpr ⟨w, hw, rfl⟩), C195.like_found _ q _ hl hq⟩

/-- C195. Every other request is answered with the file of the latest version: no other version is newer. -/
theorem C195_latest (nodes : List Node) (r : Rules) (h : rules (getVersions nodes) = some r) (path : Text)
    (hp : ¬ Special (getVersions nodes) ('/' :: path)) (n : Nat) :
    ∃ v ∈ getVersions nodes, (∀ w ∈ getVersions nodes, w.mtime ≤ v.mtime) ∧
      serve r (n + 2) ('/' :: path) = some (root v.name ++ path) := by
  obtain ⟨v, rest, hvs, hrr⟩ := C195.rules_some h
  have hs := (C195_listed nodes).2.1
  have hru : rewrite r ('/' :: path) = some (root v.name ++ path) := by
    cases hx : rewrite r ('/' :: path) with
    | none => exact absurd ((C195_applies _ r h _).mp hx) hp
    | some y =>
      unfold rewrite at hx
      split at hx
      · cases hx
      · simp only [Option.some.injEq] at hx
        rw [← hx, hrr, C195.root_eq]
        simp only [List.drop_succ_cons, List.drop_zero, List.cons_append, List.nil_append]
  refine ⟨v, by rw [hvs]; simp, ?_, ?_⟩
  · intro w hw
    rw [hvs] at hs hw
    rcases List.mem_cons.mp hw with rfl | hw
    · exact Int.le_refl _
    · exact (List.pairwise_cons.mp hs).1 w hw
  · simp only [serve, hru]
    have hd := C195.direct _ r h v (by rw [hvs]; simp) ['/'] path
    rw [← C195.root_eq] at hd
    rw [hd]

/-- C195. The page links to all versions in this order, and only the first one is called the latest. -/
theorem C195_page (vs : List Version) (k : Nat) (v : Version) (hv : vs[k]? = some v) :
    (page vs)[k]? = some (link v, v.name ++ if k = 0 then " (latest)".toList else []) ∧ (page vs).length = vs.length := by
  constructor
  · simp only [page, List.getElem?_map, List.getElem?_zipIdx, hv, Option.map_some, Nat.zero_add]
  · simp only [page, List.length_map, List.length_zipIdx]

/-- C195 fails for the links on the page of the versions: they have no slash at the end, so the rules do not recognize them and look for the version inside of the latest one. -/
theorem C195_link_witness :
    let nodes : List Node := [⟨"2.4.1".toList, true, false, 100⟩, ⟨"versions".toList, true, false, 300⟩, ⟨"2.4.2".toList, true, false, 200⟩]
    let vs := getVersions nodes
    vs.map (·.name) = ["2.4.2".toList, "2.4.1".toList] ∧
    ∃ r, rules vs = some r ∧ ∀ v ∈ vs, serve r 10 (link v) =
      some ("/2.4.2/PySwitch/web/htdocs/".toList ++ v.name ++ "/PySwitch/web/htdocs".toList) := by
  refine ⟨by decide +kernel, _, rfl, ?_⟩
  decide +kernel

/-- C195 for names with dots: such a name stands for other names, too. A request for another folder is left as it is, although there is no such version. -/
theorem C195_dot_witness :
    let vs : List Version := [⟨"2.4.2".toList, 200⟩]
    ∃ r, rules vs = some r ∧ rewrite r "/2x4y2/PySwitch/web/htdocs/index.html".toList = none := by
  exact ⟨_, rfl, by decide +kernel⟩

/-- Two versions: the start page, a file of the older one, and the page of the versions. -/
example : let vs := getVersions [⟨"2-4-1".toList, true, false, 100⟩, ⟨".".toList, true, true, 900⟩, ⟨"2-4-2".toList, true, false, 200⟩]
    ∃ r, rules vs = some r ∧ (∀ v ∈ vs, '.' ∉ v.name) ∧
      serve r 10 "/index.html".toList = some "/2-4-2/PySwitch/web/htdocs/index.html".toList ∧
      serve r 10 "/2-4-1/PySwitch/web/htdocs/index.html".toList = some "/2-4-1/PySwitch/web/htdocs/index.html".toList ∧
      serve r 10 "/versions".toList = some "/versions".toList :=
  ⟨_, rfl, by decide +kernel, by decide +kernel, by decide +kernel, by decide +kernel⟩

end PySwitch.Props
