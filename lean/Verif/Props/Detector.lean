import Verif.Lemmas.Detector
import Verif.Props.PortScan

namespace PySwitch.Props
open PySwitch.Detector PySwitch.Detector.Spec

/-! C160: the detection of a Kemper. -/

/-- C160: exactly the messages with the value of the rig volume are taken for an answer. -/
theorem C160_accepts (data : List Nat) : accepts data = true ↔ Answer data := accepts_iff data

/-- The answer of a Kemper is accepted, a control change, another parameter, and a message without end are not. -/
example : Answer [240, 0, 32, 51, 0, 0, 1, 0, 4, 1, 64, 0, 247] ∧ ¬ Answer [176, 7, 100] ∧ ¬ Answer [240, 0, 32, 51, 0, 0, 1, 0, 4, 0, 64, 0, 247] ∧
    ¬ Answer [240, 0, 32, 51, 0, 0, 1, 0, 4, 1, 64, 0] := by
  simp only [← accepts_iff]
  decide

/-- C160: a port which gives back what is sent to it is not taken for a Kemper. -/
theorem C160_echo : ¬ Answer request := by
  simp only [← accepts_iff]
  decide

/-- C160: for ports with different names, the search for a Kemper has one result at most. It finds the port from which the first answer comes in
time, whatever else is received, and it fails if the time of all ports is over and none has answered in time. -/
theorem C160_search (names : List String) (distinct : names.Nodup) (es : List Detector.Ev) :
    (search names es).calls.length ≤ 1 ∧
    (∀ i, PortScan.Call.success i ∈ (search names es).calls ↔ FirstAnswer names.length es i) ∧
    (PortScan.Call.failure ∈ (search names es).calls ↔ NoAnswer names.length es ∧ ∀ i, i < names.length → Detector.Ev.timeout i ∈ es) := by
  rw [search_eq]
  obtain ⟨h1, h2, h3⟩ := C142_search_partial names distinct false (es.filterMap meaning)
  refine ⟨h1, fun i => (h2 i).trans (firstAnswer_iff _ _ i), h3.trans ?_⟩
  rw [noAnswer_iff]
  unfold PortScan.Spec.AllOver
  simp only [mem_timeout]

namespace C160

/-- The request comes back from the first port; the second answers, then the first, too. -/
def es : List Detector.Ev := [.message 0 request, .message 1 [176, 7, 100], .timeout 2, .message 2 [240, 0, 32, 51, 0, 0, 1, 0, 4, 1, 64, 0, 247],
  .message 1 [240, 0, 32, 51, 0, 0, 1, 0, 4, 1, 64, 0, 247], .message 0 [240, 0, 32, 51, 0, 0, 1, 0, 4, 1, 64, 0, 247], .timeout 0]

end C160

example : (search ["Port A", "Kemper", "Port B"] C160.es).calls = [.success 1] ∧ FirstAnswer 3 C160.es 1 := by
  have h : (search ["Port A", "Kemper", "Port B"] C160.es).calls = [.success 1] := by decide
  exact ⟨h, ((C160_search ["Port A", "Kemper", "Port B"] (by decide) C160.es).2.1 1).1 (by rw [h]; simp)⟩

/-- C160: after any history, with complete messages only, the virtual Kemper answers the request at once, with a single message, which is
accepted. -/
theorem C160_virtual (morphBug : Bool) (start now : Int) (day date : List Nat) (es : List Kemper.Machine.Ev)
    (he : ∀ e ∈ es, Detector.Spec.Proper e) :
    ∃ answer, ((((Kemper.Machine.initial morphBug start day).run es).1.receive now date request).2 = [answer]) ∧ Answer answer := by
  have hg := Detector.good_run (good_initial morphBug start day) es he
  generalize ((Kemper.Machine.initial morphBug start day).run es).1 = m at hg
  obtain ⟨n, hn⟩ := params_request hg.2 m.dev.proto.parameterSet
  refine ⟨_, ?_, 0, 0, [n / 128, n % 128], rfl⟩
  have hr : Kemper.Virtual.receive m.dev.proto m.dev.params now request =
      (m.dev.proto, Kemper.Virtual.parseParams 2 m.dev.proto.parameterSet m.dev.params request) := by
    have hp : Kemper.Virtual.parse (Kemper.Virtual.setMessages m.dev.params) m.dev.proto now request = (m.dev.proto, [], false) := by
      unfold Kemper.Virtual.parse
      rw [hg.1, if_pos (by decide)]
    simp only [Kemper.Virtual.receive, hp, hg.1]
    rfl
  have hf : Kemper.Setup.fired 2 m.dev.params request = none := by
    unfold Kemper.Setup.fired
    split
    · rfl
    · rename_i p hp
      split
      · rename_i v hv
        have := (hit_request (hg.2 _ (List.mem_map_of_mem (List.mem_of_find?_eq_some hp))) hv).1
        simp at this
      · rfl
  have hd : (m.dev.receive now date request).2 = (Kemper.Virtual.parseParams 2 m.dev.proto.parameterSet m.dev.params request).2 := by
    unfold Kemper.Setup.Device.receive
    rw [if_neg (by decide)]
    simp only [hr, hg.1, hf]
  unfold Kemper.Machine.Machine.receive
  rw [if_neg (by decide), hg.1, hf]
  exact hd.trans hn

/-- Also after the rig volume has been set. -/
example : ((((Kemper.Machine.initial true 0 []).run [.receive 1 [] [240, 0, 32, 51, 2, 127, 1, 0, 4, 1, 5, 6, 247], .receive 2 [] [176, 50, 1],
    .update 3]).1.receive 4 [] request).2 = [[240, 0, 32, 51, 0, 0, 1, 0, 4, 1, 5, 6, 247]]) := by decide +kernel

example : ∀ e ∈ [Kemper.Machine.Ev.receive 1 [] [240, 0, 32, 51, 2, 127, 1, 0, 4, 1, 5, 6, 247], .receive 2 [] [176, 50, 1], .update 3],
    Detector.Spec.Proper e := by
  simp [Detector.Spec.Proper, Complete]

/-- C160: the message with which a controller sets the rig volume has the same form: a port from which it comes is taken for a Kemper. -/
theorem C160_set_witness : Answer [240, 0, 32, 51, 2, 127, 1, 0, 4, 1, 5, 6, 247] ∧
    (search ["Controller", "Kemper"] [.message 0 [240, 0, 32, 51, 2, 127, 1, 0, 4, 1, 5, 6, 247],
      .message 1 [240, 0, 32, 51, 0, 0, 1, 0, 4, 1, 64, 0, 247]]).calls = [.success 0] := by
  rw [← accepts_iff]
  decide

/-- C160: without its end, a message about a parameter makes the virtual Kemper answer later requests with something else. -/
theorem C160_incomplete_witness :
    ((((Kemper.Machine.initial true 0 []).run [.receive 1 [] [240, 0, 32, 51, 2, 127, 65, 0, 4]]).1.receive 2 [] request).2 =
      [[240, 0, 32, 51, 0, 0, 1, 0, 4, 0, 0, 247]]) ∧ ¬ Answer [240, 0, 32, 51, 0, 0, 1, 0, 4, 0, 0, 247] := by
  rw [← accepts_iff]
  decide +kernel

end PySwitch.Props
