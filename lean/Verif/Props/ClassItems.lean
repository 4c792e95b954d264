import Verif.Spec.ClassItems
/-!
C188: The editor offers the colours which are defined in the source.
-/
namespace PySwitch.Props
open PySwitch.ClassItems PySwitch.ClassItems.Spec

namespace C188

/-- The item of an attribute. -/
def item (cls : List Char) (a : List Char × List Char) : Item := .attribute (cls ++ '.' :: a.1) a.2

mutual
theorem outside (cls : List Char) (s : State) (hs : some s.stack ≠ s.depth) : ∀ n, without cls n = true → visit ⟨cls, false, false, true⟩ s n = some s
  | .classDef name body, h => by
    rw [visit, if_pos (by simpa [without] using h)]
    rfl
  | .functionDef name body, _ => by rw [visit]; rfl
  | .assign t m v, _ => by
    cases t <;> rw [visit] <;> simp [hs]
  | .block body, h => by rw [visit]; exact outsideAll cls s hs body (by simpa [without] using h)
  | .pass, _ => by rw [visit]
theorem outsideAll (cls : List Char) (s : State) (hs : some s.stack ≠ s.depth) : ∀ ns, withoutAll cls ns = true → visitAll ⟨cls, false, false, true⟩ s ns = some s
  | [], _ => by rw [visitAll]
  | n :: ns, h => by
    rw [withoutAll, Bool.and_eq_true] at h
    rw [visitAll, outside cls s hs n h.1]
    exact outsideAll cls s hs ns h.2
end

mutual
theorem inside (cls : List Char) : ∀ (n : Node) (s : State), some s.stack = s.depth → without cls n = true → simple n = true →
    visit ⟨cls, false, false, true⟩ s n = some ⟨s.depth, s.stack, s.ret ++ (attributesOf n).map (item cls)⟩
  | .classDef name body, s, _, h, _ => by
    rw [visit, if_pos (by simpa [without] using h)]
    simp [attributesOf]
  | .functionDef name body, s, _, _, _ => by rw [visit]; simp [attributesOf]
  | .assign .other m v, s, _, _, h => by simp [simple] at h
  | .assign (.name n) m v, s, hs, _, _ => by
    rw [visit]
    by_cases hp : n.head? = some '_'
    · simp [hs, attributesOf, Query.skips, Public, hp]
    · simp [hs, attributesOf, Query.skips, Public, hp, item, Query.attributeName]
  | .block body, s, hs, h, h2 => by
    rw [visit, attributesOf]
    exact insideAll cls body s hs (by simpa [without] using h) (by simpa [simple] using h2)
  | .pass, s, _, _, _ => by rw [visit]; simp [attributesOf]
theorem insideAll (cls : List Char) : ∀ (ns : List Node) (s : State), some s.stack = s.depth → withoutAll cls ns = true → simpleAll ns = true →
    visitAll ⟨cls, false, false, true⟩ s ns = some ⟨s.depth, s.stack, s.ret ++ (attributesOfAll ns).map (item cls)⟩
  | [], s, _, _, _ => by rw [visitAll]; simp [attributesOfAll]
  | n :: ns, s, hs, h, h2 => by
    rw [withoutAll, Bool.and_eq_true] at h
    rw [simpleAll, Bool.and_eq_true] at h2
    rw [visitAll, inside cls n s hs h.1 h2.1]
    simp only
    rw [insideAll cls ns ⟨s.depth, s.stack, s.ret ++ (attributesOf n).map (item cls)⟩ hs h.2 h2.2]
    simp [attributesOfAll]
end

theorem append (q : Query) (a b : List Node) : ∀ (s : State), visitAll q s (a ++ b) = (visitAll q s a).bind (fun t => visitAll q t b) := by
  induction a with
  | nil => intro s; rw [visitAll]; rfl
  | cons n ns ih =>
    intro s
    rw [List.cons_append, visitAll, visitAll]
    cases visit q s n with
    | none => rfl
    | some t => exact ih t

mutual
theorem idle (cls : List Char) (u : Bool) (s : State) : ∀ n, without cls n = true → noFunction n = true → visit ⟨cls, u, true, false⟩ s n = some s
  | .classDef name body, h, _ => by
    rw [visit, if_pos (by simpa [without] using h)]
    rfl
  | .functionDef name body, _, h => by simp [noFunction] at h
  | .assign t m v, _, _ => by cases t <;> rw [visit] <;> rfl
  | .block body, h, h2 => by rw [visit]; exact idleAll cls u s body (by simpa [without] using h) (by simpa [noFunction] using h2)
  | .pass, _, _ => by rw [visit]
theorem idleAll (cls : List Char) (u : Bool) (s : State) : ∀ ns, withoutAll cls ns = true → noFunctionAll ns = true → visitAll ⟨cls, u, true, false⟩ s ns = some s
  | [], _, _ => by rw [visitAll]
  | n :: ns, h, h2 => by
    rw [withoutAll, Bool.and_eq_true] at h
    rw [noFunctionAll, Bool.and_eq_true] at h2
    rw [visitAll, idle cls u s n h.1 h2.1]
    exact idleAll cls u s ns h.2 h2.2
end

mutual
theorem away (cls : List Char) (u : Bool) (s : State) (hs : some s.stack ≠ s.depth) : ∀ n, without cls n = true → visit ⟨cls, u, true, false⟩ s n = some s
  | .classDef name body, h => by
    rw [visit, if_pos (by simpa [without] using h)]
    rfl
  | .functionDef name body, _ => by rw [visit]; simp [hs]
  | .assign t m v, _ => by cases t <;> rw [visit] <;> rfl
  | .block body, h => by rw [visit]; exact awayAll cls u s hs body (by simpa [without] using h)
  | .pass, _ => by rw [visit]
theorem awayAll (cls : List Char) (u : Bool) (s : State) (hs : some s.stack ≠ s.depth) : ∀ ns, withoutAll cls ns = true → visitAll ⟨cls, u, true, false⟩ s ns = some s
  | [], _ => by rw [visitAll]
  | n :: ns, h => by
    rw [withoutAll, Bool.and_eq_true] at h
    rw [visitAll, away cls u s hs n h.1]
    exact awayAll cls u s hs ns h.2
end

/-- The item of a function. -/
def call (cls name : List Char) : Item := .function (callName cls name)

theorem functionName_eq (cls : List Char) (u f a : Bool) (name : List Char) : callName cls name = Query.functionName ⟨cls, u, f, a⟩ name := by
  unfold callName Query.functionName
  generalize "__init__".toList = i
  by_cases h : name = i
  · rw [if_pos h, if_neg (by rw [bne_iff_ne]; exact fun g => g h), List.append_nil]
  · rw [if_neg h, if_pos (bne_iff_ne.mpr h), List.append_assoc]; rfl

mutual
theorem members (cls : List Char) (u : Bool) : ∀ (n : Node) (s : State), some s.stack = s.depth → without cls n = true → flat cls n = true →
    visit ⟨cls, u, true, false⟩ s n = some ⟨s.depth, s.stack, s.ret ++ ((methodsOf n).filter fun m => u || Public m).map (call cls)⟩
  | .classDef name body, s, _, h, _ => by
    rw [visit, if_pos (by simpa [without] using h)]
    simp [methodsOf]
  | .functionDef name body, s, hs, _, hf => by
    simp only [flat, Bool.and_eq_true] at hf
    rw [visit, if_neg (by simp), if_neg (by simp [hs])]
    by_cases hp : u = false ∧ name.head? = some '_'
    · rw [if_pos (by simp [Query.skips, hp.1, hp.2])]
      simp [methodsOf, hp.1, Public, hp.2]
    · rw [if_neg (by simpa [Query.skips] using hp), idleAll cls u _ body hf.2 hf.1]
      have : (u || Public name) = true := by
        cases u
        · simpa [Public] using hp
        · rfl
      rw [methodsOf, List.filter_cons, if_pos this, List.filter_nil, List.map_cons, List.map_nil, call, functionName_eq]
  | .assign t m v, s, _, _, _ => by cases t <;> rw [visit] <;> simp [methodsOf]
  | .block body, s, hs, h, h2 => by
    rw [visit, methodsOf]
    exact membersAll cls u body s hs (by simpa [without] using h) (by simpa [flat] using h2)
  | .pass, s, _, _, _ => by rw [visit]; simp [methodsOf]
theorem membersAll (cls : List Char) (u : Bool) : ∀ (ns : List Node) (s : State), some s.stack = s.depth → withoutAll cls ns = true → flatAll cls ns = true →
    visitAll ⟨cls, u, true, false⟩ s ns = some ⟨s.depth, s.stack, s.ret ++ ((methodsOfAll ns).filter fun m => u || Public m).map (call cls)⟩
  | [], s, _, _, _ => by rw [visitAll]; simp [methodsOfAll]
  | n :: ns, s, hs, h, h2 => by
    rw [withoutAll, Bool.and_eq_true] at h
    rw [flatAll, Bool.and_eq_true] at h2
    rw [visitAll, members cls u n s hs h.1 h2.1]
    simp only
    rw [membersAll cls u ns ⟨s.depth, s.stack, s.ret ++ ((methodsOf n).filter fun m => u || Public m).map (call cls)⟩ hs h.2 h2.2]
    simp [methodsOfAll]
end

end C188

/-- The functions which are extracted from a class are exactly its methods, in their order, by the names they are called with; those with an underscore only if they are wanted. Whatever else is in the
file is left out: functions of the module and of other classes. -/
theorem C188_functions (cls : List Char) (u : Bool) (before body after : List Node) (hb : withoutAll cls before = true) (ha : withoutAll cls after = true)
    (hi : withoutAll cls body = true) (hf : flatAll cls body = true) :
    extract ⟨cls, u, true, false⟩ (before ++ .classDef cls body :: after) =
      some (((methodsOfAll body).filter fun m => u || Public m).map fun m => .function (callName cls m)) := by
  unfold extract
  rw [C188.append, C188.awayAll _ _ _ (by simp) before hb]
  simp only [Option.bind_some]
  rw [visitAll, visit, if_neg (by simp)]
  simp only
  rw [C188.membersAll _ _ body _ rfl hi hf]
  simp only
  rw [C188.awayAll _ _ _ (by simp) after ha]
  simp only [Option.map_some, List.nil_append, Option.some.injEq]
  rfl

example : let body : List Node := [.functionDef "__init__".toList [.assign .other [] "1".toList], .functionDef "_x".toList [], .assign (.name "A".toList) [] "1".toList, .functionDef "get".toList [.pass]]
    withoutAll "C".toList body = true ∧ flatAll "C".toList body = true ∧
    ((methodsOfAll body).filter fun m => true || Public m).map (callName "C".toList) = ["C".toList, "C._x".toList, "C.get".toList] ∧
    ((methodsOfAll body).filter fun m => false || Public m).map (callName "C".toList) = ["C.get".toList] := by decide +kernel

/-- A local function of a method is given as a method of the class, too. -/
theorem C188_nested_witness : ∃ body : List Node, methodsOfAll body = ["f".toList] ∧
    extract ⟨"A".toList, false, true, false⟩ [.classDef "A".toList body] = some [.function "A.f".toList, .function "A.g".toList] := by
  refine ⟨[.functionDef "f".toList [.functionDef "g".toList []]], by decide +kernel, ?_⟩
  simp [extract, visitAll, visit, Query.skips, Query.functionName]

/-- The colours of the editor are exactly the public attributes of the class, with their values and in their order, whatever else is in the file: other classes, functions and variables, also those with
the names of colours. Missing: inner classes with the name of the class, and assignments with more than one name. -/
theorem C188_colours_partial (before body after : List Node) (hb : withoutAll "Colors".toList before = true) (ha : withoutAll "Colors".toList after = true)
    (hi : withoutAll "Colors".toList body = true) (hs : simpleAll body = true) :
    getAvailableColors (before ++ .classDef "Colors".toList body :: after) =
      some ((attributesOfAll body).map fun a => .attribute ("Colors.".toList ++ a.1) a.2) := by
  unfold getAvailableColors extract
  rw [C188.append, C188.outsideAll _ _ (by simp) before hb]
  simp only [Option.bind_some]
  rw [visitAll, visit, if_neg (by simp)]
  simp only
  rw [C188.insideAll _ body _ rfl hi hs]
  simp only
  rw [C188.outsideAll _ _ (by simp) after ha]
  simp only [Option.map_some, List.nil_append, Option.some.injEq]
  apply List.map_congr_left
  intro a _
  simp [C188.item]

/-- A file with a variable and a class before, an inner class, a function and a private attribute in the class, and a variable after it. -/
example : let body : List Node := [.assign (.name "WHITE".toList) [] "(255, 255, 255)".toList, .assign (.name "_x".toList) [] "1".toList,
      .functionDef "f".toList [.assign (.name "y".toList) [] "2".toList], .classDef "Inner".toList [.assign (.name "z".toList) [] "3".toList],
      .block [.assign (.name "RED".toList) [] "(255, 0, 0)".toList]]
    let before : List Node := [.assign .other [] "1".toList, .classDef "Other".toList [.assign (.name "BLUE".toList) [] "4".toList]]
    let after : List Node := [.assign (.name "DEFAULT".toList) [] "5".toList]
    withoutAll "Colors".toList before = true ∧ withoutAll "Colors".toList after = true ∧ withoutAll "Colors".toList body = true ∧ simpleAll body = true ∧
    attributesOfAll body = [("WHITE".toList, "(255, 255, 255)".toList), ("RED".toList, "(255, 0, 0)".toList)] := by
  decide +kernel

/-- Without the class, there are no colours, and no failure. -/
theorem C188_none (source : List Node) (h : withoutAll "Colors".toList source = true) : getAvailableColors source = some [] := by
  unfold getAvailableColors extract
  rw [C188.outsideAll _ _ (by simp) source h]
  rfl

example : withoutAll "Colors".toList [.assign .other [] "1".toList, .classDef "Other".toList [.classDef "Colors".toList []]] = true := by decide +kernel

/-- Of an assignment to two names, the second one is lost: the class has an attribute which is not offered. -/
theorem C188_double_witness : ∃ body : List Node, body = [.assign (.name "GRAY".toList) [.name "GREY".toList] "(190, 190, 190)".toList] ∧
    getAvailableColors [.classDef "Colors".toList body] = some [.attribute "Colors.GRAY".toList "(190, 190, 190)".toList] := by
  refine ⟨_, rfl, ?_⟩
  simp [getAvailableColors, extract, visitAll, visit, Query.skips, Query.attributeName]

/-- After an inner class with the name of the class, the attributes of the class are lost. -/
theorem C188_inner_witness : ∃ (body : List Node), ("RED".toList, "(255, 0, 0)".toList) ∈ attributesOfAll body ∧
    getAvailableColors [.classDef "Colors".toList body] = some [] := by
  refine ⟨[.classDef "Colors".toList [], .assign (.name "RED".toList) [] "(255, 0, 0)".toList], by decide +kernel, ?_⟩
  simp [getAvailableColors, extract, visitAll, visit]

/-- If functions and attributes of a class are extracted together, local variables of its functions are given as attributes of the class. -/
theorem C188_local_witness : ∃ (body : List Node), attributesOfAll body = [] ∧
    extract ⟨"A".toList, false, true, true⟩ [.classDef "A".toList body] = some [.function "A.f".toList, .attribute "A.x".toList "1".toList] := by
  refine ⟨[.functionDef "f".toList [.assign (.name "x".toList) [] "1".toList]], by decide +kernel, ?_⟩
  simp [extract, visitAll, visit, Query.skips, Query.attributeName, Query.functionName]

end PySwitch.Props
