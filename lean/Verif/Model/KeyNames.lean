import Verif.Model.MappingNames
/-!
Model of the names which the configuration editor shows for actions which send keys of a keyboard, or custom messages (`web/htdocs/js/model/parser/FunctionMeta.js:198-246`, `web/htdocs/js/misc/Tools.js:105-107`).
-/
namespace PySwitch.KeyNames
open PySwitch.Properties (Text lit)
open PySwitch.MappingNames (removeAll given)

/-- `.replaceAll(c, "")` for one character. (`FunctionMeta.js:242-245`, `Tools.js:106`.) -/
def removeChar (c : Char) (t : Text) : Text := t.filter (· != c)

/-- `FunctionMeta.js:240-246` `#formatKeycodes`. -/
def formatKeycodes (codes : Text) : Text := removeChar ')' (removeChar '(' (removeChar ']' (removeChar '[' (removeAll (lit "Keycode.") 0 codes))))

/-- `FunctionMeta.js:211-221` `#getDisplayNameHidKeyboard`, for a call with this argument. -/
def keyboard (keycodes : Option Text) : Text := match given keycodes with
  | some k => lit "USB Key " ++ formatKeycodes k
  | none => lit "USB Keyboard (HID)"

/-- `FunctionMeta.js:223-234` `#getDisplayNameHidKeyboardShort`, for a call with this argument. -/
def keyboardShort (keycodes : Option Text) : Text := match given keycodes with
  | some k => lit "USB Key " ++ formatKeycodes k
  | none => lit "USB Key"

/-- `Tools.js:105-107` `stripQuotes`. -/
def stripQuotes (str : Text) : Text := removeChar '\'' (removeChar '"' str)

/-- `FunctionMeta.js:198-205` `#getDisplayNameCustomMessage`. -/
def customMessage (text : Option Text) : Text := match given text with
  | some t => if t = lit "''" then lit "Custom MIDI Message" else stripQuotes t
  | none => lit "Custom MIDI Message"

end PySwitch.KeyNames
