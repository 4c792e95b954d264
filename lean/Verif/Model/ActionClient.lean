/-!
Model of how the configuration editor finds the definition of an action: by the import statement of its name it determines the client
(`web/htdocs/python/parser/PySwitchParser.py:363-380`, `web/htdocs/python/parser/misc/ImportExtractor.py`), and in the definitions of this client it searches for the name
(`web/htdocs/js/ui/parser/ParserFrontendInput.js:44-72`).

Simplified: texts are lists of characters; the names which actions have in the editor are those of `Model/ActionNames.lean`, here it is only decided for which definition.
-/
namespace PySwitch.ActionClient

abbrev Text := List Char

/-- One name of an import statement; `name` is `none` for names with dots, which are nodes and not texts for the code. (`ImportExtractor.py:16-21`.) -/
structure Alias where
  name : Option Text
  asname : Option Text := none
deriving Repr, DecidableEq

/-- An import statement: its source code, and the names (`none`: all of the module). (`ImportExtractor.py:9-26`.) -/
structure Import where
  code : Text
  names : Option (List Alias)
deriving Repr, DecidableEq

/-- `ImportExtractor.py:17-21`. -/
def Alias.value (a : Alias) : Option Text :=
  match a.asname with
  | some n => some n
  | none => a.name

/-- `ImportExtractor.py:16-24`: the loop over the names of a statement. -/
def scan (name : Text) (code : Text) (result : Option Text) : List Alias → Option Text
  | [] => result
  | a :: rest => scan name code (if a.value = some name then some code else result) rest

/-- `ImportExtractor.py:9-26` `_visit_import_alike`; an empty result counts as none. -/
def visit (name : Text) (result : Option Text) (i : Import) : Option Text :=
  match result with
  | some (_ :: _) => result
  | _ => match i.names with
    | none => result
    | some names => scan name i.code result names

/-- `PySwitchParser.py:363-366` `_determine_import_statement`: all import statements of the file are visited, in their order. -/
def importStatement (name : Text) (imports : List Import) : Option Text := imports.foldl (visit name) none

/-- `in` for texts. (`PySwitchParser.py:377`.) -/
def isIn (part : Text) : Text → Bool
  | [] => part.isPrefixOf []
  | c :: t => part.isPrefixOf (c :: t) || isIn part t

/-- `PySwitchParser.py:376-380`: the loop over the clients. -/
def clientOf (statement : Text) : List Text → Text
  | [] => "local".toList
  | c :: rest => if isIn c statement then c else clientOf statement rest

/-- `PySwitchParser.py:369-380` `determine_client`. -/
def determineClient (clients : List Text) (imports : List Import) (name : Text) : Text :=
  match importStatement name imports with
  | some (c :: t) => clientOf (c :: t) clients
  | _ => "local".toList

/-- A definition of an action, with the type of the inputs it is for and the import it needs. (`web/htdocs/definitions/actions.json`, `meta.json`.) -/
structure Action where
  name : Text
  target : Text
  path : Text
  importName : Text
deriving Repr, DecidableEq

/-- The definitions by client. (`web/htdocs/definitions/actions.json`.) -/
abbrev Catalogue := List (Text × List Action)

/-- `ParserFrontendInput.js:44-59` `#getActionDefinition`. -/
def getActionDefinition (name client type : Text) : Catalogue → Option Action
  | [] => none
  | (c, actions) :: rest =>
    if c != client && c != "local".toList then getActionDefinition name client type rest
    else match actions.find? fun a => a.target == type && a.name == name with
      | some a => some a
      | none => getActionDefinition name client type rest

/-- The definition for a call in the source code. (`ParserFrontendInput.js:64-72`, `InputsExtractor.py:10-11`.) -/
def definition (clients : List Text) (catalogue : Catalogue) (imports : List Import) (name type : Text) : Option Action :=
  getActionDefinition name (determineClient clients imports name) type catalogue

/-- The import statement which the editor adds for a definition. (`AddImportsTransformer.py:16`.) -/
def importFor (a : Action) : Import := ⟨"from ".toList ++ a.path ++ " import ".toList ++ a.importName, some [⟨some a.importName, none⟩]⟩

/-- `web/htdocs/definitions/actions.json`, with the targets from `meta.json`. -/
def shipped : Catalogue := [
  ("boomerang".toList, [
    ⟨"BOOMERANG_PLAY_STOP_ALL".toList, "AdafruitSwitch".toList, "pyswitch.clients.boomerang.actions.boomerang".toList, "BOOMERANG_PLAY_STOP_ALL".toList⟩,
    ⟨"BOOMERANG_SYNC_SERIAL".toList, "AdafruitSwitch".toList, "pyswitch.clients.boomerang.actions.boomerang".toList, "BOOMERANG_SYNC_SERIAL".toList⟩,
    ⟨"BOOMERANG_MUTE_THRU".toList, "AdafruitSwitch".toList, "pyswitch.clients.boomerang.actions.boomerang".toList, "BOOMERANG_MUTE_THRU".toList⟩,
    ⟨"BOOMERANG_PANIC".toList, "AdafruitSwitch".toList, "pyswitch.clients.boomerang.actions.boomerang".toList, "BOOMERANG_PANIC".toList⟩,
    ⟨"BOOMERANG_ERASE".toList, "AdafruitSwitch".toList, "pyswitch.clients.boomerang.actions.boomerang".toList, "BOOMERANG_ERASE".toList⟩,
    ⟨"BOOMERANG_ERASE_ALL".toList, "AdafruitSwitch".toList, "pyswitch.clients.boomerang.actions.boomerang".toList, "BOOMERANG_ERASE_ALL".toList⟩,
    ⟨"BOOMERANG_STACK".toList, "AdafruitSwitch".toList, "pyswitch.clients.boomerang.actions.boomerang".toList, "BOOMERANG_STACK".toList⟩,
    ⟨"BOOMERANG_COPY".toList, "AdafruitSwitch".toList, "pyswitch.clients.boomerang.actions.boomerang".toList, "BOOMERANG_COPY".toList⟩,
    ⟨"BOOMERANG_FADE".toList, "AdafruitSwitch".toList, "pyswitch.clients.boomerang.actions.boomerang".toList, "BOOMERANG_FADE".toList⟩,
    ⟨"BOOMERANG_OCTAVE".toList, "AdafruitSwitch".toList, "pyswitch.clients.boomerang.actions.boomerang".toList, "BOOMERANG_OCTAVE".toList⟩,
    ⟨"BOOMERANG_ONCE".toList, "AdafruitSwitch".toList, "pyswitch.clients.boomerang.actions.boomerang".toList, "BOOMERANG_ONCE".toList⟩,
    ⟨"BOOMERANG_REVERSE".toList, "AdafruitSwitch".toList, "pyswitch.clients.boomerang.actions.boomerang".toList, "BOOMERANG_REVERSE".toList⟩]),
  ("kemper".toList, [
    ⟨"RIG_VOLUME_BOOST".toList, "AdafruitSwitch".toList, "pyswitch.clients.kemper.actions.rig_volume_boost".toList, "RIG_VOLUME_BOOST".toList⟩,
    ⟨"ENCODER_RIG_TRANSPOSE".toList, "AdafruitEncoder".toList, "pyswitch.clients.kemper.actions.rig_transpose".toList, "ENCODER_RIG_TRANSPOSE".toList⟩,
    ⟨"AMP_GAIN".toList, "AdafruitEncoder".toList, "pyswitch.clients.kemper.actions.amp".toList, "AMP_GAIN".toList⟩,
    ⟨"FIXED_EFFECT_STATE".toList, "AdafruitSwitch".toList, "pyswitch.clients.kemper.actions.fixed_fx".toList, "FIXED_EFFECT_STATE".toList⟩,
    ⟨"LOOPER_REC_PLAY_OVERDUB".toList, "AdafruitSwitch".toList, "pyswitch.clients.kemper.actions.looper".toList, "LOOPER_REC_PLAY_OVERDUB".toList⟩,
    ⟨"LOOPER_STOP".toList, "AdafruitSwitch".toList, "pyswitch.clients.kemper.actions.looper".toList, "LOOPER_STOP".toList⟩,
    ⟨"LOOPER_ERASE".toList, "AdafruitSwitch".toList, "pyswitch.clients.kemper.actions.looper".toList, "LOOPER_ERASE".toList⟩,
    ⟨"LOOPER_CANCEL".toList, "AdafruitSwitch".toList, "pyswitch.clients.kemper.actions.looper".toList, "LOOPER_CANCEL".toList⟩,
    ⟨"LOOPER_REVERSE".toList, "AdafruitSwitch".toList, "pyswitch.clients.kemper.actions.looper".toList, "LOOPER_REVERSE".toList⟩,
    ⟨"LOOPER_TRIGGER".toList, "AdafruitSwitch".toList, "pyswitch.clients.kemper.actions.looper".toList, "LOOPER_TRIGGER".toList⟩,
    ⟨"LOOPER_HALF_SPEED".toList, "AdafruitSwitch".toList, "pyswitch.clients.kemper.actions.looper".toList, "LOOPER_HALF_SPEED".toList⟩,
    ⟨"MORPH_BUTTON".toList, "AdafruitSwitch".toList, "pyswitch.clients.kemper.actions.morph".toList, "MORPH_BUTTON".toList⟩,
    ⟨"MORPH_DISPLAY".toList, "AdafruitSwitch".toList, "pyswitch.clients.kemper.actions.morph".toList, "MORPH_DISPLAY".toList⟩,
    ⟨"ENCODER_BPM".toList, "AdafruitEncoder".toList, "pyswitch.clients.kemper.actions.tempo_bpm".toList, "ENCODER_BPM".toList⟩,
    ⟨"TAP_TEMPO".toList, "AdafruitSwitch".toList, "pyswitch.clients.kemper.actions.tempo".toList, "TAP_TEMPO".toList⟩,
    ⟨"SHOW_TEMPO".toList, "AdafruitSwitch".toList, "pyswitch.clients.kemper.actions.tempo".toList, "SHOW_TEMPO".toList⟩,
    ⟨"EFFECT_STATE".toList, "AdafruitSwitch".toList, "pyswitch.clients.kemper.actions.effect_state".toList, "EFFECT_STATE".toList⟩,
    ⟨"ENCODER_BANK_SELECT".toList, "AdafruitEncoder".toList, "pyswitch.clients.kemper.actions.bank_select_encoder".toList, "ENCODER_BANK_SELECT".toList⟩,
    ⟨"BANK_UP".toList, "AdafruitSwitch".toList, "pyswitch.clients.kemper.actions.bank_up_down".toList, "BANK_UP".toList⟩,
    ⟨"BANK_DOWN".toList, "AdafruitSwitch".toList, "pyswitch.clients.kemper.actions.bank_up_down".toList, "BANK_DOWN".toList⟩,
    ⟨"EFFECT_STATE_EXT".toList, "AdafruitSwitch".toList, "pyswitch.clients.kemper.actions.effect_state_extended_names".toList, "EFFECT_STATE_EXT".toList⟩,
    ⟨"RIG_SELECT_AND_MORPH_STATE".toList, "AdafruitSwitch".toList, "pyswitch.clients.kemper.actions.rig_select_and_morph_state".toList, "RIG_SELECT_AND_MORPH_STATE".toList⟩,
    ⟨"RIG_UP".toList, "AdafruitSwitch".toList, "pyswitch.clients.kemper.actions.rig_up_down".toList, "RIG_UP".toList⟩,
    ⟨"RIG_DOWN".toList, "AdafruitSwitch".toList, "pyswitch.clients.kemper.actions.rig_up_down".toList, "RIG_DOWN".toList⟩,
    ⟨"RIG_SELECT".toList, "AdafruitSwitch".toList, "pyswitch.clients.kemper.actions.rig_select".toList, "RIG_SELECT".toList⟩,
    ⟨"TUNER_MODE".toList, "AdafruitSwitch".toList, "pyswitch.clients.kemper.actions.tuner".toList, "TUNER_MODE".toList⟩,
    ⟨"EFFECT_BUTTON".toList, "AdafruitSwitch".toList, "pyswitch.clients.kemper.actions.effect_button".toList, "EFFECT_BUTTON".toList⟩,
    ⟨"BANK_SELECT".toList, "AdafruitSwitch".toList, "pyswitch.clients.kemper.actions.bank_select".toList, "BANK_SELECT".toList⟩]),
  ("local".toList, [
    ⟨"ENCODER_BUTTON".toList, "AdafruitSwitch".toList, "pyswitch.clients.local.actions.encoder_button".toList, "ENCODER_BUTTON".toList⟩,
    ⟨"CUSTOM_MESSAGE".toList, "AdafruitSwitch".toList, "pyswitch.clients.local.actions.custom".toList, "CUSTOM_MESSAGE".toList⟩,
    ⟨"PARAMETER_UP_DOWN".toList, "AdafruitSwitch".toList, "pyswitch.clients.local.actions.param_change".toList, "PARAMETER_UP_DOWN".toList⟩,
    ⟨"DISPLAY_FIXED_TEXT".toList, "AdafruitSwitch".toList, "pyswitch.clients.local.actions.fixed_text".toList, "DISPLAY_FIXED_TEXT".toList⟩,
    ⟨"HID_KEYBOARD".toList, "AdafruitSwitch".toList, "pyswitch.clients.local.actions.hid".toList, "HID_KEYBOARD".toList⟩,
    ⟨"BINARY_SWITCH".toList, "AdafruitSwitch".toList, "pyswitch.clients.local.actions.binary_switch".toList, "BINARY_SWITCH".toList⟩,
    ⟨"ROTATING_MESSAGES".toList, "AdafruitSwitch".toList, "pyswitch.clients.local.actions.rotate".toList, "ROTATING_MESSAGES".toList⟩]),
  ("local".toList, [
    ⟨"AnalogAction".toList, "AdafruitPotentiometer".toList, "pyswitch.controller.actions.AnalogAction".toList, "AnalogAction".toList⟩,
    ⟨"EncoderAction".toList, "AdafruitEncoder".toList, "pyswitch.controller.actions.EncoderAction".toList, "EncoderAction".toList⟩,
    ⟨"PagerAction".toList, "AdafruitSwitch".toList, "pyswitch.clients.local.actions.pager".toList, "PagerAction".toList⟩,
    ⟨"PagerAction.proxy".toList, "AdafruitSwitch".toList, "pyswitch.clients.local.actions.pager".toList, "PagerAction".toList⟩])]

end PySwitch.ActionClient
