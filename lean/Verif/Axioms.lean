import Lean
import Verif

/-! Checks, whenever the project is built, the axioms every theorem of this development rests on:
the build of this file fails if a theorem of the `PySwitch` namespace depends on anything but
`propext`, `Quot.sound` and `Classical.choice`, and it reports how many property theorems
(`PySwitch.Props.Cxx_…`) have been looked at. Not imported by `Verif.lean`, as it imports it. -/

open Lean Elab Command

/-- The three standard axioms of Lean. -/
def allowedAxioms : List Name := [``propext, ``Quot.sound, ``Classical.choice]

run_cmd do
  let env ← getEnv
  let mut all : Nat := 0
  let mut props : Nat := 0
  for (name, info) in env.constants.map₁.toList do
    if (`PySwitch).isPrefixOf name && !name.isInternal then
      if let .thmInfo _ := info then
        let used ← liftCoreM <| collectAxioms name
        for a in used do
          unless allowedAxioms.contains a do
            throwError "{name} depends on {a}"
        all := all + 1
        if (`PySwitch.Props).isPrefixOf name then props := props + 1
  logInfo m!"{all} theorems checked ({props} of them in PySwitch.Props): only propext, Quot.sound and Classical.choice are used"
