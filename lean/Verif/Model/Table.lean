import Verif.Model.Mapping
/-
Model of the parameter definitions: `content/lib/pyswitch/clients/kemper/__init__.py:12-64, 262-551`, the files in
`content/lib/pyswitch/clients/kemper/mappings` and `content/lib/pyswitch/clients/local/mappings/generic.py`.

Each definition here is the arguments the function passes to `get` (`Model/Mapping.lean`). Dependencies (`depends`) refer to the
parameter "Rig Date"; the model gives its name.
-/
namespace PySwitch.Table
open PySwitch PySwitch.Wire PySwitch.Mapping

/-- One definition: name, dependency and the mapping. (`controller/client.py:46-57`.) -/
structure Param where
  name : String
  depends : Option String := none
  mapping : Mapping
deriving Repr, DecidableEq

/-- `kemper/__init__.py:41`. -/
def manufacturer : List Nat := [0x00, 0x20, 0x33]
/-- `kemper/__init__.py:17-21`: the player. -/
def productType : Nat := 0x02
/-- `kemper/__init__.py:42`. -/
def deviceId : Nat := 0x7f
/-- `kemper/__init__.py:43`. -/
def instance_ : Nat := 0x00

/-- `kemper/__init__.py:46`. -/
def pageStrings : Nat := 0x00

/-- `kemper/__init__.py:49-54` the function codes. -/
def fRequest : Nat := 0x41
/-- `kemper/__init__.py:49-54`. -/
def fRequestString : Nat := 0x43
/-- `kemper/__init__.py:49-54`. -/
def fResponse : Nat := 0x01
/-- `kemper/__init__.py:49-54`. -/
def fResponseString : Nat := 0x03
/-- `kemper/__init__.py:49-54`. -/
def fSet : Nat := 0x01

/-- `kemper/__init__.py:264-287` `KemperNRPNMessage`. -/
def nrpn (function page address : Nat) : Msg := .sysex manufacturer [productType, deviceId, function, instance_, page, address]

/-- `kemper/__init__.py:290-310` `KemperNRPNExtendedMessage`. -/
def nrpnExt (function : Nat) (controller : List Nat) : Msg :=
  .sysex manufacturer ([productType, deviceId, function, instance_] ++ controller)

/-- `ControlChange(n, 0)` and `ProgramChange(0)`, not sent yet.
(`web/htdocs/python/adafruit_midi/control_change.py:38-43`, `program_change.py:36-40`.) -/
def cc (n : Nat) (v : Nat := 0) : Msg := .cc n v none
/-- `web/htdocs/python/adafruit_midi/program_change.py:36-40`. -/
def pc : Msg := .pc 0 none

/-- `kemper/__init__.py:333-346` `EFFECT_SLOT_NAME`. -/
def slotNames : List String := ["A", "B", "C", "D", "X", "MOD", "DLY", "REV", "DLYns", "REVns"]

/-- `kemper/__init__.py:349-362` `CC_EFFECT_SLOT_ENABLE`. -/
def slotControls : List Nat := [17, 18, 19, 20, 22, 24, 27, 29, 26, 28]

/-- `kemper/__init__.py:365-378` `NRPN_SLOT_ADDRESS_PAGE`. -/
def slotPages : List Nat := [0x32, 0x33, 0x34, 0x35, 0x38, 0x3a, 0x3c, 0x3d, 0x3c, 0x3d]

/-- `kemper/__init__.py:382-395` `NRPN_FREEZE_SLOT_PARAMETER_ADDRESSES`. -/
def slotFreeze : List Nat := [0x6b, 0x6c, 0x6d, 0x6e, 0x6f, 0x71, 0x72, 0x73, 0x72, 0x73]

/-- The tables for a slot id in range. (`kemper/__init__.py:333-395`.) -/
def slotName (i : Nat) : String := slotNames[i]?.getD ""
/-- `kemper/__init__.py:349-362`. -/
def slotControl (i : Nat) : Nat := slotControls[i]?.getD 0
/-- `kemper/__init__.py:365-378`. -/
def slotPage (i : Nat) : Nat := slotPages[i]?.getD 0
/-- `kemper/__init__.py:382-395`. -/
def slotFreezeAddress (i : Nat) : Nat := slotFreeze[i]?.getD 0

/-- A parameter which is set, requested and answered under one address (the most frequent form of the definitions).
(Used for many files in `mappings`, see below.) -/
def numeric (name : String) (page address : Nat) : Param :=
  { name, mapping := { set := .one (nrpn fSet page address), request := .one (nrpn fRequest page address),
                       response := .one (nrpn fResponse page address) } }

/-- A string parameter which depends on the rig date. (Used for `mappings/amp.py` and others, see below.) -/
def text (name : String) (id : Nat) (depends : Option String) : Param :=
  { name, depends, mapping := { request := .one (nrpn fRequestString pageStrings id),
                                response := .one (nrpn fResponseString pageStrings id), type := .string } }

/-- A parameter which can only be set by a control change. (Used for many files in `mappings`, see below.) -/
def control (name : String) (n : Nat) : Param := { name, mapping := { set := .one (cc n) } }

/-- The answer to all rig and bank changes: CC 32 and a program change.
(`kemper/__init__.py:541-549`, `mappings/select.py:21-29`.) -/
def rigResponse : Response := .two (some (cc 32)) (some pc)

/-- A two-part parameter. (`mappings/select.py:13-50`, `mappings/bank.py`.) -/
def rigChange (name : String) (set : MsgField) : Param := { name, mapping := { set, response := rigResponse, twoPart := true } }

/-- `kemper/__init__.py:416-433` `EFFECT_STATE`. -/
def effectState (slot : Nat) : Param :=
  { name := "Slot State " ++ slotName slot,
    mapping := { set := .one (cc (slotControl slot)), request := .one (nrpn fRequest (slotPage slot) 0x03),
                 response := .one (nrpn fResponse (slotPage slot) 0x03) } }

/-- `kemper/__init__.py:436-450` `EFFECT_TYPE`. -/
def effectType (slot : Nat) : Param :=
  { name := "Slot Type " ++ slotName slot,
    mapping := { request := .one (nrpn fRequest (slotPage slot) 0x00), response := .one (nrpn fResponse (slotPage slot) 0x00) } }

/-- `kemper/__init__.py:453-468` `RIG_DATE`. -/
def rigDate : Param := text "Rig Date" 0x03 none

/-- `kemper/__init__.py:470-486` `RIG_NAME`. -/
def rigName : Param := text "Rig Name" 0x01 (some "Rig Date")

/-- `kemper/__init__.py:488-501` `TUNER_MODE_STATE`. -/
def tunerMode : Param :=
  { name := "Tuner Mode", mapping := { set := .one (cc 31), response := .one (nrpn 0x01 0x7f 0x7e) } }

/-- `kemper/__init__.py:503-512` `TUNER_NOTE`. -/
def tunerNote : Param := { name := "Tuner Note", mapping := { response := .one (nrpn 0x01 0x7d 0x54) } }

/-- `kemper/__init__.py:514-523` `TUNER_DEVIANCE`. -/
def tunerDeviance : Param := { name := "Tuner Deviance", mapping := { response := .one (nrpn 0x01 0x7c 0x0f) } }

/-- `kemper/__init__.py:525-535` `BIDIRECTIONAL_SENSING`. -/
def sense : Param := { name := "Sense", mapping := { response := .one (nrpnExt 0x7e [0x7f]) } }

/-- `kemper/__init__.py:537-550` `RIG_ID`. -/
def rigId : Param := rigChange "Rig ID" .none

/-- `mappings/amp.py`. -/
def amp : List Param := [text "Amp Name" 0x10 (some "Rig Date"), numeric "Amp State" 0x0a 0x02, numeric "Gain" 0x0a 0x04]

/-- `mappings/bank.py`. -/
def bank : List Param := [rigChange "Next Bank" (.one (cc 48)), rigChange "Prev Bank" (.one (cc 49))]

/-- `mappings/cabinet.py`. -/
def cabinet : List Param := [text "Cab Name" 0x20 (some "Rig Date"), numeric "Cab State" 0x0c 0x02]

/-- `mappings/effects.py:15-22` `MAPPING_EFFECT_BUTTON`, for button `num`. -/
def effectButton (num : Nat) : Param := control ("Effect Button " ++ toString num) (75 + (num - 1))

/-- `mappings/effects.py:25-43` `MAPPING_DLY_REV_MIX`. -/
def mix (slot : Nat) : Param := numeric ("Mix " ++ slotName slot) (slotPage slot) 0x45

/-- `mappings/fixed_fx.py`. -/
def fixed : List Param :=
  [numeric "TranspSt" 5 1, numeric "FixGateSt" 5 6, numeric "FixCompSt" 5 11, numeric "FixBoost" 5 16, numeric "FixWah" 5 21,
   numeric "FixChor" 5 26, numeric "FixAir" 5 36, numeric "FixTracker" 5 41]

/-- `mappings/freeze.py:14-32` `MAPPING_FREEZE`. -/
def freeze (slot : Nat) : Param := numeric ("Freeze " ++ slotName slot) 0x7d (slotFreezeAddress slot)

/-- `mappings/freeze.py:35-45` `MAPPING_FREEZE_ALL_GLOBAL`. -/
def freezeAll : Param := { name := "Freeze", mapping := { set := .one (cc 35), response := .one (cc 35) } }

/-- `mappings/looper.py`. -/
def looper : List Param :=
  [("LoopRec", 88), ("LoopStop", 89), ("LoopTrig", 90), ("LoopRev", 91), ("Loop1/2", 92), ("LoopCanc", 93), ("LoopErase", 94)].map
    (fun p : String × Nat => { name := p.1, mapping := { set := .one (nrpn fSet 0x7d p.2) } })

/-- `mappings/morph.py`. -/
def morph : List Param :=
  [("Morph Button", 80), ("Morph", 11)].map
    (fun p : String × Nat => { name := p.1, mapping := { set := .one (cc p.2), request := .one (nrpn fRequest 0x00 0x0b),
                                                         response := .one (nrpn fResponse 0x00 0x0b) } })

/-- `mappings/pedals.py`. -/
def pedals : List Param :=
  [control "Wah" 1, control "Vol" 7, control "Pitch" 4, control "DlMix" 68, control "Feed" 69, control "RvMix" 70,
   control "RvTime" 71, control "OutVol" 73]

/-- `mappings/rig.py`. -/
def rig : List Param := [text "Rig Comment" 0x04 (some "Rig Date"), numeric "RigVol" 0x04 0x01, numeric "RigTrans" 0x04 0x04]

/-- `mappings/rotary.py`. -/
def rotary (slot : Nat) : Param := numeric ("Rot. Speed " ++ slotName slot) (slotPage slot) 0x1e

/-- `mappings/select.py:13-30` `MAPPING_RIG_SELECT` (`rig` counts from 0; the template has the value 1). -/
def rigSelect (rig : Nat) : Param := rigChange ("Select Rig " ++ toString (rig + 1)) (.one (cc (50 + rig) 1))

/-- `mappings/select.py:33-50` `MAPPING_BANK_SELECT`. -/
def bankSelect : Param := rigChange "Select Bank" (.one (cc 47))

/-- `mappings/system.py`. -/
def system : List Param :=
  [numeric "MainVol" 0x7f 0, numeric "MonVol" 0x7f 2, numeric "LoopVol" 0x7f 52, numeric "SpaceInt" 0x7f 36]

/-- `mappings/tempo.py`. -/
def tempo : List Param :=
  [control "Tap Tempo" 30, { name := "Tempo Pulse", mapping := { response := .one (nrpnExt 0x01 [0x7c, 0x00, 0x00]) } }]

/-- `mappings/tempo_bpm.py:11-29`. -/
def bpm : Param := numeric "BPM" 0x04 0x00

/-- `local/mappings/generic.py`. -/
def programChange : Param := { name := "ProgChg", mapping := { set := .one pc } }

/-- The definitions which take a slot. (No code of its own: the definitions above.) -/
def slotParams (slot : Nat) : List Param := [effectState slot, effectType slot, mix slot, freeze slot, rotary slot]

/-- Everything a configuration can use: all definitions, for all slots, rigs and effect buttons.
(No code of its own: the definitions above.) -/
def all : List Param :=
  [rigDate, rigName, tunerMode, tunerNote, tunerDeviance, sense, rigId] ++ amp ++ bank ++ cabinet ++
  [1, 2, 3, 4].map effectButton ++ fixed ++ [freezeAll] ++ looper ++ morph ++ pedals ++ rig ++
  (List.range 5).map rigSelect ++ [bankSelect] ++ system ++ tempo ++ [bpm, programChange] ++
  (List.range 10).flatMap slotParams

/-- `kemper/__init__.py:555-582` `_PARAMETER_SET_2`: what the bidirectional protocol reports by itself. -/
def parameterSet2 : List Param :=
  [0, 1, 2, 3, 4, 5].flatMap (fun slot => [effectType slot, effectState slot]) ++ [rigName, tunerMode, tunerNote, tunerDeviance]

end PySwitch.Table
