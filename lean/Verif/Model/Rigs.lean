/-
Model of the Kemper actions which select rigs and banks: `RIG_UP`/`RIG_DOWN`, `BANK_UP`/`BANK_DOWN`, `BANK_SELECT`
and `RIG_SELECT` in `content/lib/pyswitch/clients/kemper/actions/`. Modelled is what they send and which data they share;
labels and LEDs are in `Model/RigDisplay.lean`, except for what `RIG_SELECT` remembers when its displays are updated (here).

Rig IDs are `5 * bank + slot`. `int(v / 5)` is `Int.tdiv v 5` (the division is exact enough for rig IDs).
-/
namespace PySwitch.Rigs

/-- A control change message passed to the client by `client.set` (see `Model/Client.lean`, `Model/Mapping.lean` for how
`set` sends the message of the mapping with the value). (`client.py:291-310`.) -/
structure CC where
  number : Int
  value : Int
deriving Repr, DecidableEq

/-- `mappings/select.py:33-39` `MAPPING_BANK_SELECT`. -/
def bankSelect (bank : Int) : CC := ⟨47, bank⟩

/-- `mappings/select.py:13-19` `MAPPING_RIG_SELECT(rig)`. -/
def rigSelect (rig : Int) (value : Int) : CC := ⟨50 + rig, value⟩

/-- The shared data of the application used here, `appl.shared`. `none` means that there is no such entry. Callbacks are
numbered. (`controller.py` (`shared`).) -/
structure Shared where
  preselectedBank : Option Int := none
  preselectCallback : Option Nat := none
  morphOverride : Option Int := none
deriving Repr, DecidableEq

/-! ## `rig_up_down.py` -/

/-- Parameters of `RIG_UP`/`RIG_DOWN`. (`rig_up_down.py:78-110`, the constructor of the callback.) -/
structure RigChange where
  up : Bool
  keepBank : Bool := false
deriving Repr, DecidableEq

/-- State of an action sending rig select messages: the value of its rig ID mapping, and the slot of
`__sent_rig_mapping`. (`rig_up_down.py:78-110`.) -/
structure State where
  value : Option Int := none
  sent : Option Int := none
deriving Repr, DecidableEq

/-- `rig_up_down.py:206-228` `__get_next_rig`. -/
def RigChange.nextRig (c : RigChange) (currRig currRigId : Int) : Int :=
  if c.up then
    if c.keepBank then
      if currRig < 5 - 1 then currRigId + 1 else currRigId
    else
      if currRigId < 5 * 125 - 1 then currRigId + 1 else 0
  else
    if c.keepBank then
      if currRig > 0 then currRigId - 1 else currRigId
    else
      if currRigId > 0 then currRigId - 1 else 5 * 125 - 1

/-- `rig_up_down.py:112-131` `push`. -/
def RigChange.push (c : RigChange) (st : State) (sh : Shared) : State × Shared × List CC :=
  match st.value with
  | none => (st, sh, [])
  | some v =>
    let currBank := Int.tdiv v 5
    let currRig := v % 5
    let next := c.nextRig currRig v
    if next = v then (st, sh, [])
    else
      let nextBank := Int.tdiv next 5
      let nextRig := next % 5
      ({ st with sent := some nextRig }, { sh with morphOverride := some 0 },
        (if nextBank ≠ currBank then [bankSelect nextBank] else []) ++ [rigSelect nextRig 1])

/-- `rig_up_down.py:133-139`, `bank_select.py:151-157` and the end of `rig_select.py:205-208`: `release`. -/
def release (st : State) : State × List CC :=
  match st.sent with
  | none => (st, [])
  | some r => ({ st with sent := none }, [rigSelect r 0])

/-! ## `bank_up_down.py` -/

/-- Parameters of `BANK_UP`/`BANK_DOWN` as used by `KemperBankChangeCallback`; `id` identifies the callback,
`number` is the control change number of the mapping used when not preselecting.
(`bank_up_down.py:85-116`, the constructor of the callback.) -/
structure BankChange where
  offset : Int
  preselect : Bool := false
  maxBank : Option Int := none
  id : Nat := 0
  number : Int := 48
deriving Repr, DecidableEq

/-- `bank_up_down.py:230`: the number of banks. -/
def BankChange.numBanks (c : BankChange) : Int := c.maxBank.getD 125

/-- `bank_up_down.py:232-233`, the first loop: `while (value < 0): value += n`, for positive `n`. (For others the loop does not end
if it is entered: see `loopUpBody`.) -/
def loopUp (n : Nat) (v : Int) : Int :=
  if _h : v < 0 ∧ 0 < n then loopUp n (v + n) else v
termination_by (-v).toNat
decreasing_by omega

/-- `bank_up_down.py:234-235`, the second loop: `while (value >= n): value -= n`, for positive `n`. -/
def loopDown (n : Nat) (v : Int) : Int :=
  if _h : v ≥ n ∧ 0 < n then loopDown n (v - n) else v
termination_by v.toNat
decreasing_by omega

/-- One iteration of the second loop (`bank_up_down.py:234-235`) for any number of banks: `none` when the loop ends. -/
def loopDownBody (n : Int) (v : Int) : Option Int := if v ≥ n then some (v - n) else none

/-- `bank_up_down.py:222-237` `__get_next_bank`, for a positive number of banks. -/
def BankChange.nextBank (c : BankChange) (sh : Shared) (value : Int) : Int :=
  let bank := match sh.preselectedBank with
    | some b => b
    | none => Int.tdiv value 5
  loopDown c.numBanks.toNat (loopUp c.numBanks.toNat (bank + c.offset))

/-- `bank_up_down.py:143-157` `push`. (`release` does nothing.) -/
def BankChange.push (c : BankChange) (st : State) (sh : Shared) : State × Shared × List CC :=
  if c.preselect then
    match st.value with
    | none => (st, sh, [])
    | some v =>
      let b := c.nextBank sh v
      (st, { sh with preselectedBank := some b, preselectCallback := some c.id, morphOverride := some 0 }, [bankSelect b])
  else (st, { sh with morphOverride := some 0 }, [⟨c.number, 0⟩])

/-! ## `bank_select.py` -/

/-- Parameters of `BANK_SELECT`. Banks count from 1. (`bank_select.py:46-75`.) -/
structure BankSelect where
  bank : Int
  bankOff : Option Int := none
  preselect : Bool := false
  id : Nat := 0
deriving Repr, DecidableEq

/-- `bank_select.py:64`: the off bank is ignored in preselect mode. -/
def BankSelect.off (c : BankSelect) : Option Int := if c.preselect then none else c.bankOff

/-- `bank_select.py:129-135`: the bank preselect message. -/
def BankSelect.bankMsg (c : BankSelect) (currBank : Int) : CC :=
  match c.off with
  | some o => if currBank ≠ c.bank - 1 then bankSelect (c.bank - 1) else bankSelect (o - 1)
  | none => bankSelect (c.bank - 1)

/-- `bank_select.py:113-149` `push`. (Lines 122-126 update the displays of all switches.) -/
def BankSelect.push (c : BankSelect) (st : State) (sh : Shared) : State × Shared × List CC :=
  match st.value with
  | none => (st, sh, [])
  | some v =>
    let currBank := Int.tdiv v 5
    -- lines 118-120
    let sh := if c.preselect ∧ (sh.preselectedBank ≠ none ∨ currBank ≠ c.bank - 1) then
        { sh with preselectedBank := some (c.bank - 1), preselectCallback := some c.id }
      else sh
    let bankMsg := c.bankMsg currBank
    -- lines 138-149
    if !c.preselect then
      let currRig := v % 5
      ({ st with sent := some currRig }, { sh with preselectedBank := none, morphOverride := some 0 },
        [bankMsg, rigSelect currRig 1])
    else (st, sh, [bankMsg])

/-! ## `rig_select.py` -/

/-- Parameters of `RIG_SELECT`. Rigs and banks count from 1. For `rig_off` and `bank_off`, `auto` is given separately
(`rig_select.py:80-86`). -/
structure RigSelect where
  rig : Option Int
  rigOff : Option Int := none
  rigOffAuto : Bool := false
  bank : Option Int := none
  bankOff : Option Int := none
  bankOffAuto : Bool := false
  exclude : List Int := []
  rigBtnMorph : Bool := false
  momentaryMorph : Bool := false
deriving Repr, DecidableEq

/-- State of the `RIG_SELECT` callback. (`rig_select.py:78-104`.) -/
structure SelState where
  value : Option Int := none
  sent : Option Int := none
  currentValue : Option Int := some (-1)
  rigOff : Option Int
  bankOff : Option Int
deriving Repr, DecidableEq

/-- `rig_select.py:73-104` `__init__`; `none` stands for the exception of lines 75-76. -/
def RigSelect.init (c : RigSelect) : Option SelState :=
  let rigOffArg := c.rigOffAuto || c.rigOff.isSome
  let bankOffArg := c.bankOffAuto || c.bankOff.isSome
  if rigOffArg && c.bank.isSome && !bankOffArg then none
  else some { rigOff := if c.rigOffAuto then some 1 else c.rigOff, bankOff := if c.bankOffAuto then some 1 else c.bankOff }

/-- `rig_select.py:107-123` `state`. -/
def RigSelect.state (c : RigSelect) (st : SelState) : Bool :=
  match st.value, c.rig with
  | some v, some r =>
    match c.bank with
    | some b => if b - 1 ≠ Int.tdiv v 5 then false else r - 1 = v % 5
    | none => r - 1 = v % 5
  | _, _ => false

/-- `rig_select.py:160` (`rig_btn_morph`): is the current rig the one of this switch? `not bank` also holds for bank 0. -/
def RigSelect.isCurrent (c : RigSelect) (v : Int) : Bool :=
  c.rig = some (v % 5 + 1) ∧ (c.bank = none ∨ c.bank = some 0 ∨ c.bank = some (Int.tdiv v 5 + 1))

/-- `rig_select.py:157-173`: the morph state override after pushing, when no preselection is pending. -/
def RigSelect.pushMorph (c : RigSelect) (st : SelState) (old : Option Int) : Int :=
  match st.value with
  | none => 0
  | some v =>
    if c.rigBtnMorph ∧ st.rigOff = none ∧ st.bankOff = none then
      if c.isCurrent v then
        if c.momentaryMorph then 16383
        else if old.getD 0 > 0 then 0 else 16383
      else 0
    else 0

/-- `rig_select.py:146-155`: the bank preselect message, when no preselection is pending. -/
def RigSelect.bankMsgs (c : RigSelect) (st : SelState) : List CC :=
  match c.bank with
  | none => []
  | some b =>
    match st.bankOff with
    | some o => if c.state st then [bankSelect (o - 1)] else [bankSelect (b - 1)]
    | none => [bankSelect (b - 1)]

/-- `rig_select.py:175-186`: the slot to select. -/
def RigSelect.slot (c : RigSelect) (st : SelState) (sh : Shared) : Option Int :=
  match c.state st && sh.preselectedBank.isNone, st.rigOff with
  | true, some o => some (o - 1)
  | _, _ =>
    match c.rig with
    | some r => some (r - 1)
    | none => st.value.map (· % 5)

/-- `rig_select.py:139-191` `push`. -/
def RigSelect.push (c : RigSelect) (st : SelState) (sh : Shared) : SelState × Shared × List CC :=
  let slot := c.slot st sh
  let rigMsgs := match slot with
    | some s => [rigSelect s 1]
    | none => []
  match sh.preselectedBank with
  | none =>
    ({ st with sent := slot }, { sh with morphOverride := some (c.pushMorph st sh.morphOverride) },
      c.bankMsgs st ++ rigMsgs)
  | some _ =>
    ({ st with sent := slot }, { sh with morphOverride := some 0, preselectedBank := none }, rigMsgs)

/-- `rig_select.py:194-208` `release`. -/
def RigSelect.release (c : RigSelect) (st : SelState) (sh : Shared) : SelState × Shared × List CC :=
  let sh := match st.value with
    | none => sh
    | some v =>
      if c.rigBtnMorph ∧ st.rigOff = none ∧ st.bankOff = none ∧ c.isCurrent v ∧ c.momentaryMorph then
        { sh with morphOverride := some 0 }
      else sh
  match st.sent with
  | none => (st, sh, [])
  | some r => ({ st with sent := none }, sh, [rigSelect r 0])

/-- `rig_select.py:221-247`, the part of `update_displays` remembering the "off" rig and bank. -/
def RigSelect.updateDisplays (c : RigSelect) (st : SelState) : SelState :=
  match st.value with
  | none => st
  | some v =>
    if st.value ≠ st.currentValue then
      let currBank := Int.tdiv v 5
      let currRig := v % 5
      let rigOff := match c.rig with
        | some r => if (currRig + 1) ∉ c.exclude ∧ c.rigOffAuto ∧ currRig ≠ r - 1 then some (currRig + 1) else st.rigOff
        | none => st.rigOff
      let bankOff := match c.bank with
        | some b => if c.bankOffAuto ∧ currBank ≠ b - 1 then some (currBank + 1) else st.bankOff
        | none => st.bankOff
      { st with currentValue := some v, rigOff := rigOff, bankOff := bankOff }
    else st

end PySwitch.Rigs
