import Verif.Model.Properties
/-!
Model of the names which the configuration editor shows for actions on any parameter of the client: `AnalogAction`, `EncoderAction`, `BINARY_SWITCH`, `PARAMETER_UP_DOWN`, and for the effect states
(`web/htdocs/js/model/parser/FunctionMeta.js:73-96, 141-196`, `web/htdocs/clients/kemper/KemperFunctionMeta.js:151-228`).

Simplified: source code of arguments is without line breaks.
-/
namespace PySwitch.MappingNames
open PySwitch.Properties (Text lit parseInt)

/-- `str.split("_")`. (`FunctionMeta.js:74`.) -/
def split : Text → List Text
  | [] => [[]]
  | c :: cs => if c == '_' then [] :: split cs else match split cs with
    | [] => [[c]]
    | t :: ts => (c :: t) :: ts

/-- `.join(" ")`. (`FunctionMeta.js:75`.) -/
def join : List Text → Text
  | [] => []
  | [t] => t
  | t :: u :: ts => t ++ ' ' :: join (u :: ts)

/-- `FunctionMeta.js:75`: a capital letter, then small ones. -/
def capital : Text → Text
  | [] => []
  | c :: cs => c.toUpper :: cs.map Char.toLower

/-- `FunctionMeta.js:73-76` `underscoreToDisplayName`. -/
def display (str : Text) : Text := join ((split str).map capital)

/-- `.replace(pat, "")`: the first occurrence is removed. (`FunctionMeta.js:144-145`.) -/
def removeFirst (pat : Text) : Text → Text
  | [] => []
  | c :: cs => if pat.isPrefixOf (c :: cs) then (c :: cs).drop pat.length else c :: removeFirst pat cs

/-- `.replaceAll(pat, "")`; the number counts the characters still to be removed. (`FunctionMeta.js:89-90`.) -/
def removeAll (pat : Text) : Nat → Text → Text
  | _, [] => []
  | k + 1, _ :: cs => removeAll pat k cs
  | 0, c :: cs => if pat.isPrefixOf (c :: cs) then removeAll pat (pat.length - 1) cs else c :: removeAll pat 0 cs

/-- The text after the last closing bracket, if there is one. (`FunctionMeta.js:91, 146`.) -/
def afterLast : Text → Option Text
  | [] => none
  | c :: cs => match afterLast cs with
    | some r => some r
    | none => if c == ')' then some cs else none

/-- `.replace(/\((.+?)*\)/g, "")`: everything from the first opening to the last closing bracket is removed. (`FunctionMeta.js:91, 146`.) -/
def removeBrackets : Text → Text
  | [] => []
  | c :: cs => if c == '(' then match afterLast cs with
      | some r => r
      | none => c :: cs
    else c :: removeBrackets cs

/-- `FunctionMeta.js:141-148` `#stripMappingName`. -/
def stripMappingName (mapping : Text) : Text := display (removeBrackets (removeFirst (lit "KemperMappings.") (removeFirst (lit "MAPPING_") mapping)))

/-- `FunctionMeta.js:87-92`: the same for `AnalogAction`, where all occurrences are removed. -/
def stripAll (mapping : Text) : Text := display (removeBrackets (removeAll (lit "KemperMappings.") 0 (removeAll (lit "MAPPING_") 0 mapping)))

/-- There is a value, and it is not `None`. (`FunctionMeta.js:86, 158, 173, 186-187`.) -/
def given (v : Option Text) : Option Text := v.bind fun t => if t = lit "None" then none else some t

/-- `FunctionMeta.js:81-96` `#getDisplayNameAnalogAction`, for a call. -/
def analog (mapping : Option Text) : Text := match given mapping with
  | some m => stripAll m
  | none => lit "Other Parameter"

/-- `FunctionMeta.js:153-163` `#getDisplayNameEncoderAction`, for a call. -/
def encoder (mapping : Option Text) : Text := match given mapping with
  | some m => stripMappingName m
  | none => lit "Other Parameter"

/-- `FunctionMeta.js:168-178` `#getDisplayNameBinarySwitch`, for a call. -/
def binary (mapping : Option Text) : Text := match given mapping with
  | some m => stripMappingName m
  | none => lit "Other Parameter (w.FB)"

/-- `offsetInt > 0`, which is false for `NaN`. (`FunctionMeta.js:188-189`.) -/
def positive (offset : Text) : Bool := match parseInt offset with
  | some n => decide (n > 0)
  | none => false

/-- `FunctionMeta.js:180-196` `#getDisplayNameChangeParam`, for a call. -/
def upDown (mapping offset : Option Text) : Text := match given mapping with
  | some m => match given offset with
    | some o => stripMappingName m ++ (if positive o then lit " Up" else lit " Down")
    | none => stripMappingName m
  | none => lit "Parameter Up/Down"

/-- `KemperFunctionMeta.js:155-169, 207-221` `getSlotName`. -/
def slotName (id : Text) : Text :=
  if id = lit "KemperEffectSlot.EFFECT_SLOT_ID_A" then lit "A"
  else if id = lit "KemperEffectSlot.EFFECT_SLOT_ID_B" then lit "B"
  else if id = lit "KemperEffectSlot.EFFECT_SLOT_ID_C" then lit "C"
  else if id = lit "KemperEffectSlot.EFFECT_SLOT_ID_D" then lit "D"
  else if id = lit "KemperEffectSlot.EFFECT_SLOT_ID_X" then lit "X"
  else if id = lit "KemperEffectSlot.EFFECT_SLOT_ID_MOD" then lit "MOD"
  else if id = lit "KemperEffectSlot.EFFECT_SLOT_ID_DLY" then lit "DLY"
  else if id = lit "KemperEffectSlot.EFFECT_SLOT_ID_REV" then lit "REV"
  else if id = lit "KemperEffectSlot.EFFECT_SLOT_ID_DLY_NO_SPILL" then lit "DLY"
  else if id = lit "KemperEffectSlot.EFFECT_SLOT_ID_REV_NO_SPILL" then lit "REV"
  else lit "?"

/-- `KemperFunctionMeta.js:151-176, 203-228`, for a call with a slot. -/
def effectState (slot : Text) : Text := lit "Effect State " ++ slotName slot

/-- `KemperFunctionMeta.js:181-198` `#getDisplayNameFixedEffectState`, for a call with a slot. -/
def fixedState (slot : Text) : Text :=
  if slot = lit "FIXED_SLOT_ID_TRANSPOSE" then lit "Transpose"
  else if slot = lit "FIXED_SLOT_ID_GATE" then lit "Gate (fixed)"
  else if slot = lit "FIXED_SLOT_ID_COMP" then lit "Compressor (fixed)"
  else if slot = lit "FIXED_SLOT_ID_BOOST" then lit "Booster (fixed)"
  else if slot = lit "FIXED_SLOT_ID_WAH" then lit "Wah (fixed)"
  else if slot = lit "FIXED_SLOT_ID_CHORUS" then lit "Chorus (fixed)"
  else if slot = lit "FIXED_SLOT_ID_AIR" then lit "Air Chorus (fixed)"
  else if slot = lit "FIXED_SLOT_ID_DBL_TRACKER" then lit "Doubler (fixed)"
  else lit "Fixed Effect State"

end PySwitch.MappingNames
