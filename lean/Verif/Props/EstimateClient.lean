import Verif.Spec.EstimateClient
import Verif.Props.DeviceType
import Verif.Model.ActionClient
/-! C199: the client of a configuration. -/

namespace PySwitch.Props
open PySwitch PySwitch.EstimateClient PySwitch.Spec.EstimateClient
open PySwitch.DeviceType.Spec (fileOf)

namespace C199

theorem includes_file (client : Text) (hc : '\n' ∉ client) (lines : List Text) :
    Editor.Checks.includes ("pyswitch.clients.".toList ++ client) (fileOf lines) = true ↔ ∃ l ∈ lines, Mentions l client := by
  rw [Lemmas.Checks.includes_iff, C186.infix_file]
  · rfl
  · rw [List.mem_append]
    rintro (h | h)
    · revert h; decide +kernel
    · exact hc h
  · intro h
    have := (List.append_eq_nil_iff.mp h).1
    revert this
    decide +kernel

theorem imports_mentions {l client : Text} (h : Imports l client) : Mentions l client := by
  obtain ⟨m, n, rfl, _⟩ := h
  refine ⟨"from ".toList, m ++ " import ".toList ++ n, ?_⟩
  have : "from pyswitch.clients.".toList = "from ".toList ++ "pyswitch.clients.".toList := by decide +kernel
  rw [this]
  simp only [List.append_assoc]

theorem estimate (lines : List Text) : estimateClient (fileOf lines) =
    if Editor.Checks.includes ("pyswitch.clients.".toList ++ "kemper".toList) (fileOf lines) then "kemper".toList
    else if Editor.Checks.includes ("pyswitch.clients.".toList ++ "boomerang".toList) (fileOf lines) then "boomerang".toList
    else "kemper".toList := by
  have h1 : "pyswitch.clients.kemper".toList = "pyswitch.clients.".toList ++ "kemper".toList := by decide +kernel
  have h2 : "pyswitch.clients.boomerang".toList = "pyswitch.clients.".toList ++ "boomerang".toList := by decide +kernel
  unfold estimateClient
  rw [h1, h2]

end C199

/-- C199: a configuration which imports from the modules of one client, and does not mention the modules of the other one, is run with this client. Missing: configurations which mention both
(`C199_most_witness`, `C199_comment_witness`). -/
theorem C199_client_partial (lines : List Text) (l : Text) (hl : l ∈ lines) :
    (Imports l "kemper".toList → clientFor (fileOf lines) = some .kemper) ∧
    (Imports l "boomerang".toList → (∀ m ∈ lines, ¬ Mentions m "kemper".toList) → clientFor (fileOf lines) = some .boomerang) := by
  constructor
  · intro h
    unfold clientFor
    rw [C199.estimate, if_pos ((C199.includes_file _ (by decide +kernel) lines).mpr ⟨l, hl, C199.imports_mentions h⟩)]
    decide +kernel
  · intro h hn
    have hk : ¬ Editor.Checks.includes ("pyswitch.clients.".toList ++ "kemper".toList) (fileOf lines) = true := by
      rw [C199.includes_file _ (by decide +kernel)]
      rintro ⟨m, hm, hx⟩
      exact hn m hm hx
    unfold clientFor
    rw [C199.estimate, if_neg hk, if_pos ((C199.includes_file _ (by decide +kernel) lines).mpr ⟨l, hl, C199.imports_mentions h⟩)]
    decide +kernel

/-- Each configuration has a client, whatever is in the file; without any client in it, it is run with the Kemper protocol. -/
theorem C199_always (inputs : Text) : (clientFor inputs = some .kemper ∨ clientFor inputs = some .boomerang) ∧
    (¬ "pyswitch.clients.boomerang".toList <:+: inputs → clientFor inputs = some .kemper) := by
  have hk : getInstance "kemper".toList = some .kemper := by decide +kernel
  have hb : getInstance "boomerang".toList = some .boomerang := by decide +kernel
  unfold clientFor estimateClient
  constructor
  · split
    · exact .inl hk
    · split
      · exact .inr hb
      · exact .inl hk
  · intro h
    rw [← Lemmas.Checks.includes_iff] at h
    split
    · exact hk
    · exact hk

/-- If no device is found, the virtual device is the one of this client. -/
theorem C199_virtual (inputs : Text) : virtualClient (virtualName inputs) = clientFor inputs := by
  unfold virtualClient virtualName clientFor
  rw [if_pos (List.isPrefixOf_iff_prefix.mpr ?_)]
  · rw [List.drop_append_of_le_length (by decide +kernel)]
    have : List.drop 8 "virtual-".toList = [] := by decide +kernel
    rw [this, List.nil_append]
  · have : "virtual-".toList = "virtual".toList ++ ['-'] := by decide +kernel
    rw [this, List.append_assoc]
    exact List.prefix_append _ _

/-- The import statements which the editor adds for the actions it offers for a client import from its modules: with one of them, the client is found. -/
theorem C199_shipped : ∀ e ∈ ActionClient.shipped, (e.1 = "kemper".toList ∨ e.1 = "boomerang".toList) → ∀ a ∈ e.2, Imports (ActionClient.importFor a).code e.1 := by
  have key : ∀ e ∈ ActionClient.shipped, (e.1 = "kemper".toList ∨ e.1 = "boomerang".toList) → ∀ a ∈ e.2,
      a.path = "pyswitch.clients.".toList ++ e.1 ++ a.path.drop (17 + e.1.length) ∧
        (a.path.drop (17 + e.1.length) = [] ∨ (a.path.drop (17 + e.1.length)).head? = some '.') := by decide +kernel
  intro e he hc a ha
  obtain ⟨h1, h2⟩ := key e he hc a ha
  refine ⟨_, a.importName, ?_, h2⟩
  have hf : "from pyswitch.clients.".toList = "from ".toList ++ "pyswitch.clients.".toList := by decide +kernel
  have hcode : (ActionClient.importFor a).code = "from ".toList ++ a.path ++ " import ".toList ++ a.importName := rfl
  rw [hcode, hf]
  generalize a.path.drop (17 + e.1.length) = r at h1
  rw [h1]
  simp only [List.append_assoc]

/-! ### Cases -/

example : Imports "from pyswitch.clients.kemper.actions.looper import LOOPER_STOP".toList "kemper".toList :=
  ⟨".actions.looper".toList, "LOOPER_STOP".toList, by decide +kernel, by decide +kernel⟩

example : clientFor (fileOf ["from pyswitch.clients.boomerang.actions.boomerang import BOOMERANG_PANIC".toList, "Inputs = []".toList]) = some .boomerang := by decide +kernel

/-- It is not the client which is used the most: two imports for one client and one for the other. -/
theorem C199_most_witness :
    let lines := ["from pyswitch.clients.boomerang.actions.boomerang import BOOMERANG_PANIC".toList, "from pyswitch.clients.boomerang.actions.boomerang import BOOMERANG_STACK".toList,
      "from pyswitch.clients.kemper import NUM_BANKS".toList]
    Count "boomerang".toList lines 2 ∧ Count "kemper".toList lines 1 ∧ clientFor (fileOf lines) = some .kemper := by
  have hb : ∀ n, Imports ("from pyswitch.clients.boomerang.actions.boomerang import ".toList ++ n) "boomerang".toList := fun n =>
    ⟨".actions.boomerang".toList, n, by
      have : "from pyswitch.clients.boomerang.actions.boomerang import ".toList = "from pyswitch.clients.".toList ++ "boomerang".toList ++ ".actions.boomerang".toList ++ " import ".toList := by
        decide +kernel
      rw [this], by decide +kernel⟩
  have differ : ∀ (l client : Text) (k : Nat), k < 22 + client.length → l[k]? ≠ ("from pyswitch.clients.".toList ++ client)[k]? → ¬ Imports l client := by
    rintro l client k hk hd ⟨m, n, rfl, _⟩
    apply hd
    have hlen : k < ("from pyswitch.clients.".toList ++ client).length := by
      rw [List.length_append]
      have : "from pyswitch.clients.".toList.length = 22 := by decide +kernel
      omega
    rw [List.append_assoc, List.append_assoc, List.getElem?_append_left hlen]
  refine ⟨.yes _ _ _ (hb "BOOMERANG_PANIC".toList) (.yes _ _ _ (hb "BOOMERANG_STACK".toList) (.no _ _ _ (differ _ _ 22 (by decide +kernel) (by decide +kernel)) .nil)),
    .no _ _ _ (differ _ _ 22 (by decide +kernel) (by decide +kernel)) (.no _ _ _ (differ _ _ 22 (by decide +kernel) (by decide +kernel)) (.yes _ _ _
      ⟨[], "NUM_BANKS".toList, by decide +kernel, .inl rfl⟩ .nil)), by decide +kernel⟩

/-- A comment is enough: nothing is imported for Kemper devices, but their protocol is run, and their devices are searched. -/
theorem C199_comment_witness :
    clientFor (fileOf ["from pyswitch.clients.boomerang.actions.boomerang import BOOMERANG_PANIC".toList, "# from pyswitch.clients.kemper.actions.looper import LOOPER_STOP".toList]) = some .kemper ∧
    Client.kemper.hasProtocol = true ∧ Client.kemper.hasDetector = true ∧ Client.boomerang.hasProtocol = false ∧ Client.boomerang.hasDetector = false := by decide +kernel

end PySwitch.Props
