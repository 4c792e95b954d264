import Verif.Model.Properties

/-!
Model of the names which the configuration editor shows for rig and bank actions (`web/htdocs/clients/kemper/KemperFunctionMeta.js`,
`web/htdocs/js/model/parser/FunctionMeta.js`), from the call in the source code (`web/htdocs/python/parser/misc/CodeExtractor.py`).

Left out: the prefix with the name of the client (`KemperFunctionMeta.js:15`), the names which do not depend on the arguments, and those of the
other actions.
-/

namespace PySwitch.ActionNames
open PySwitch.Properties (Text lit)

/-- The arguments of a call: the name is missing (null) if it is not known. (`CodeExtractor.py:59-92`, `ParserInputAction.js:79-101`.) -/
abbrev Args := List (Option Text × Text)

/-- `CodeExtractor.py:65-90`: arguments without a keyword get the names of the parameters, one after the other. -/
def nameArgs (names : List Text) : Args → Args
  | [] => []
  | (some k, v) :: rest => (some k, v) :: nameArgs names rest
  | (none, v) :: rest => (names.head?, v) :: nameArgs names.tail rest

/-- `FunctionMeta.js:251-260` `getArgument`. -/
def getArgument (args : Args) (name : Text) : Option Text :=
  (args.find? fun a => a.1 == some name).map (·.2)

/-- The first occurrence: the text before and after it. (`replace` of JavaScript.) -/
def findFirst (pat : Text) : Text → Option (Text × Text)
  | [] => if pat = [] then some ([], []) else none
  | c :: s =>
    if pat.isPrefixOf (c :: s) then some ([], (c :: s).drop pat.length)
    else (findFirst pat s).map fun r => (c :: r.1, r.2)

/-- The patterns which are expanded in the replacement. (`replace` of JavaScript.) -/
def expand (before pat after : Text) : Text → Text
  | [] => []
  | '$' :: '$' :: r => '$' :: expand before pat after r
  | '$' :: '&' :: r => pat ++ expand before pat after r
  | '$' :: '`' :: r => before ++ expand before pat after r
  | '$' :: '\'' :: r => after ++ expand before pat after r
  | c :: r => c :: expand before pat after r

/-- `str.replace(pat, value)` of JavaScript, for a text as pattern. -/
def replace (pat value str : Text) : Text :=
  match findFirst pat str with
  | none => str
  | some (before, after) => before ++ expand before pat after value ++ after

/-- A parameter of an action with the default value for display. (`web/htdocs/definitions/actions.json`, `ParameterMeta.js:213-254`.) -/
structure Param where
  name : Text
  default : Text

/-- `KemperFunctionMeta.js:236-244` `getReplaceValue`. -/
def replaceValue (args : Args) (p : Param) : Text := (getArgument args p.name).getD p.default

/-- `KemperFunctionMeta.js:235-255` `#replaceParameterTokens`. -/
def replaceTokens (params : List Param) (args : Args) (str : Text) : Text :=
  params.foldl (fun str p => replace ('{' :: (p.name ++ ['}'])) (replaceValue args p) str) str

/-- There is a value, and it is not `None`. (`KemperFunctionMeta.js:66, 86, 103, 125`.) -/
def given (v : Option Text) : Bool := !(v == none || v == some (lit "None"))

/-- `KemperFunctionMeta.js:62-78` `#getDisplayNameRigSelect`, for a call. -/
def rigSelect (params : List Param) (args : Args) : Text :=
  if given (getArgument args (lit "rig_off")) then replaceTokens params args (lit "Toggle Rigs {rig}/{rig_off}")
  else if !(getArgument args (lit "rig") == none || getArgument args (lit "rig") != some (lit "None")) then lit "Select Current Rig"
  else replaceTokens params args (lit "Select Rig {rig}")

/-- `KemperFunctionMeta.js:83-95` `#getDisplayNameRigSelectAndMorphState`, for a call. -/
def rigMorph (params : List Param) (args : Args) : Text :=
  if given (getArgument args (lit "rig_off")) then replaceTokens params args (lit "Toggle Rigs {rig}/{rig_off} & Morph Display")
  else replaceTokens params args (lit "Select Rig {rig} & Morph Display")

/-- `KemperFunctionMeta.js:117-134` `#getDisplayNameBankSelect`, for a call. -/
def bankSelect (params : List Param) (args : Args) : Text :=
  if given (getArgument args (lit "bank_off")) then replaceTokens params args (lit "Toggle Banks {bank}/{bank_off}")
  else if getArgument args (lit "preselect") == some (lit "True") then replaceTokens params args (lit "Preselect Bank {bank}")
  else replaceTokens params args (lit "Select Bank {bank}")

/-- The parameters of `RIG_SELECT`. (`rig_select.py:15-31`, `web/htdocs/definitions/actions.json`; no default of them is shown, except
for the first one, which every call has.) -/
def rigSelectParams : List Param :=
  [⟨lit "rig", lit "None"⟩, ⟨lit "rig_off", lit "None"⟩, ⟨lit "bank", lit "None"⟩, ⟨lit "bank_off", lit "None"⟩,
   ⟨lit "display_mode", lit "RIG_SELECT_DISPLAY_CURRENT_RIG"⟩, ⟨lit "display", lit "None"⟩, ⟨lit "id", lit "False"⟩,
   ⟨lit "use_leds", lit "True"⟩, ⟨lit "enable_callback", lit "None"⟩, ⟨lit "color_callback", lit "None"⟩, ⟨lit "color", lit "None"⟩,
   ⟨lit "text_callback", lit "None"⟩, ⟨lit "text", lit "None"⟩, ⟨lit "auto_exclude_rigs", lit "None"⟩, ⟨lit "rig_btn_morph", lit "False"⟩,
   ⟨lit "momentary_morph", lit "False"⟩]

/-- The parameters of `RIG_SELECT_AND_MORPH_STATE`. (`rig_select_and_morph_state.py:13-35`, `web/htdocs/definitions/actions.json`.) -/
def rigMorphParams : List Param :=
  [⟨lit "rig", lit "None"⟩, ⟨lit "rig_off", lit "None"⟩, ⟨lit "bank", lit "None"⟩, ⟨lit "bank_off", lit "None"⟩,
   ⟨lit "display", lit "None"⟩, ⟨lit "id", lit "False"⟩, ⟨lit "use_leds", lit "True"⟩, ⟨lit "enable_callback", lit "None"⟩,
   ⟨lit "color_callback", lit "None"⟩, ⟨lit "color", lit "None"⟩, ⟨lit "text_callback", lit "None"⟩, ⟨lit "text", lit "None"⟩,
   ⟨lit "display_mode", lit "RIG_SELECT_DISPLAY_TARGET_RIG"⟩, ⟨lit "morph_display", lit "None"⟩, ⟨lit "morph_use_leds", lit "True"⟩,
   ⟨lit "morph_id", lit "None"⟩, ⟨lit "morph_only_when_enabled", lit "True"⟩, ⟨lit "morph_color_base", lit "Colors.RED"⟩,
   ⟨lit "morph_color_morphed", lit "Colors.BLUE"⟩, ⟨lit "rig_btn_morph", lit "False"⟩, ⟨lit "momentary_morph", lit "False"⟩]

/-- The parameters of `BANK_SELECT`. (`bank_select.py:11-25`, `web/htdocs/definitions/actions.json`.) -/
def bankSelectParams : List Param :=
  [⟨lit "bank", lit "None"⟩, ⟨lit "bank_off", lit "None"⟩, ⟨lit "preselect", lit "False"⟩,
   ⟨lit "display_mode", lit "RIG_SELECT_DISPLAY_CURRENT_RIG"⟩, ⟨lit "display", lit "None"⟩, ⟨lit "id", lit "False"⟩,
   ⟨lit "use_leds", lit "True"⟩, ⟨lit "enable_callback", lit "None"⟩, ⟨lit "color_callback", lit "None"⟩, ⟨lit "color", lit "None"⟩,
   ⟨lit "text_callback", lit "None"⟩, ⟨lit "text", lit "None"⟩]

/-- The name of a call, as the list of actions of an input shows it: the arguments are those of the source code.
(`KemperFunctionMeta.js:9-37`, `ParserFrontendInput.js:63-72`.) -/
def rigSelectName (call : Args) : Text := rigSelect rigSelectParams (nameArgs (rigSelectParams.map (·.name)) call)
def rigMorphName (call : Args) : Text := rigMorph rigMorphParams (nameArgs (rigMorphParams.map (·.name)) call)
def bankSelectName (call : Args) : Text := bankSelect bankSelectParams (nameArgs (bankSelectParams.map (·.name)) call)

end PySwitch.ActionNames
