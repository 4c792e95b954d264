/-!
Model of how the page opens an entry by its location: the browser entry writes the name into the part of the address
after `#`, the router reads it from there.
(`web/htdocs/js/routing/Routing.js`, `ui/PySwitchUI.js:365-378, 490`, `Controller.js:252-255`,
`ui/examples/ExamplesProvider.js:30-32`, `ui/examples/TemplatesProvider.js:30-32`, `lib/sammy-latest.min.js`.)

A text is a list of characters (code points). Simplified: JavaScript strings with an unpaired surrogate, for which
`encodeURI` throws, do not occur. The question asked before unsaved changes are discarded is in `Model/Workspace.lean`.
The parameters which sammy reads from a query (`_parseQueryString`) are left out.
-/

namespace PySwitch.Links

/-- A JavaScript string. -/
abbrev Text := List Char

/-- The octets of the UTF-8 form of a code point (ECMAScript `Encode`, step UTF8Encode). -/
def utf8 (n : Nat) : List Nat :=
  if n < 0x80 then [n]
  else if n < 0x800 then [0xC0 + n / 64, 0x80 + n % 64]
  else if n < 0x10000 then [0xE0 + n / 4096, 0x80 + n / 64 % 64, 0x80 + n % 64]
  else [0xF0 + n / 262144, 0x80 + n / 4096 % 64, 0x80 + n / 64 % 64, 0x80 + n % 64]

/-- A hexadecimal digit, in upper case (ECMAScript `Encode`). -/
def hexDigit (d : Nat) : Char := if d < 10 then Char.ofNat (48 + d) else Char.ofNat (55 + d)

/-- An octet as `%XX`. -/
def escape (b : Nat) : Text := ['%', hexDigit (b / 16), hexDigit (b % 16)]

/-- The characters with a meaning in an address, which `decodeURI` leaves escaped. -/
def reserved : Text := [';', '/', '?', ':', '@', '&', '=', '+', '$', ',', '#']

/-- The characters `encodeURI` leaves as they are. -/
def plain (c : Char) : Bool :=
  c.isAlphanum || reserved.contains c || ['-', '_', '.', '!', '~', '*', '\'', '(', ')'].contains c

/-- JavaScript's `encodeURI` for one character. -/
def encodeChar (c : Char) : Text := if plain c then [c] else (utf8 c.toNat).flatMap escape

/-- JavaScript's `encodeURI`. -/
def encodeURI (s : Text) : Text := s.flatMap encodeChar

/-- The value of a hexadecimal digit. -/
def hexValue (c : Char) : Option Nat :=
  if 48 ≤ c.toNat ∧ c.toNat ≤ 57 then some (c.toNat - 48)
  else if 65 ≤ c.toNat ∧ c.toNat ≤ 70 then some (c.toNat - 55)
  else if 97 ≤ c.toNat ∧ c.toNat ≤ 102 then some (c.toNat - 87)
  else none

/-- A part of an encoded text: a character, or an octet with the digits it is written with. -/
inductive Tok where
  | char (c : Char)
  | octet (n : Nat) (a b : Char)
deriving DecidableEq, Repr

/-- Reads the escapes; `none` is a `URIError`. -/
def tokens : Text → Option (List Tok)
  | [] => some []
  | c :: rest =>
    if c = '%' then
      match rest with
      | a :: b :: rest' =>
        match hexValue a, hexValue b with
        | some x, some y => (tokens rest').map (.octet (16 * x + y) a b :: ·)
        | _, _ => none
      | _ => none
    else (tokens rest).map (.char c :: ·)

/-- The value of a following octet `10xxxxxx`. -/
def tail : Tok → Option Nat
  | .octet n _ _ => if 0x80 ≤ n ∧ n < 0xC0 then some (n - 0x80) else none
  | .char _ => none

/-- The code point of a sequence of octets, if it is in its shortest form and a valid one. -/
def point (low n : Nat) : Option Char :=
  if low ≤ n ∧ n < 0x110000 ∧ ¬ (0xD800 ≤ n ∧ n < 0xE000) then some (Char.ofNat n) else none

/-- JavaScript's `Decode`: escapes of the characters in `keep` are left as they are. -/
def decodeToks (keep : Text) : List Tok → Option Text
  | [] => some []
  | .char c :: r => (decodeToks keep r).map (c :: ·)
  | .octet n a b :: r =>
    if n < 0x80 then
      (decodeToks keep r).map ((if keep.contains (Char.ofNat n) then ['%', a, b] else [Char.ofNat n]) ++ ·)
    else if 0xC0 ≤ n ∧ n < 0xE0 then
      match r with
      | t1 :: r' => do
        let x1 ← tail t1
        let c ← point 0x80 ((n - 0xC0) * 64 + x1)
        let s ← decodeToks keep r'
        return c :: s
      | _ => none
    else if 0xE0 ≤ n ∧ n < 0xF0 then
      match r with
      | t1 :: t2 :: r' => do
        let x1 ← tail t1
        let x2 ← tail t2
        let c ← point 0x800 ((n - 0xE0) * 4096 + x1 * 64 + x2)
        let s ← decodeToks keep r'
        return c :: s
      | _ => none
    else if 0xF0 ≤ n ∧ n < 0xF8 then
      match r with
      | t1 :: t2 :: t3 :: r' => do
        let x1 ← tail t1
        let x2 ← tail t2
        let x3 ← tail t3
        let c ← point 0x10000 ((n - 0xF0) * 262144 + x1 * 4096 + x2 * 64 + x3)
        let s ← decodeToks keep r'
        return c :: s
      | _ => none
    else none

/-- JavaScript's `Decode`; `none` is a `URIError`. -/
def decode (keep : Text) (s : Text) : Option Text := (tokens s).bind (decodeToks keep)

/-- JavaScript's `decodeURI`. -/
def decodeURI : Text → Option Text := decode reserved

/-- JavaScript's `decodeURIComponent`. -/
def decodeURIComponent : Text → Option Text := decode []

/-- sammy's `_decode`: `decodeURIComponent((str||"").replace(/\+/g," "))`. -/
def sammyDecode (s : Text) : Option Text := decodeURIComponent (s.map fun c => if c = '+' then ' ' else c)

/-- `path.replace(/\?([^#]*)?$/, "")`: cuts off what follows the first `?` with no `#` after it
    (sammy's `routablePath`). -/
def routablePath : Text → Text
  | [] => []
  | c :: r => if c = '?' ∧ ¬ r.contains '#' then [] else c :: routablePath r

/-- What follows the first occurrence of `pat`. (A match of a regular expression `/pat(.*)/`: an address contains no line
    end.) -/
def after (pat : Text) : Text → Option Text
  | [] => if pat.isPrefixOf [] then some [] else none
  | c :: r => if pat.isPrefixOf (c :: r) then some ((c :: r).drop pat.length) else after pat r

/-- What a location makes the page do. (`Routing.js:43-95`.) -/
inductive Target where
  | scan                            -- lines 43-49
  | controller (port : Text)        -- lines 55-58
  | builtin                         -- lines 59-63
  | example (path : Text)           -- lines 67-72
  | template (path : Text)          -- lines 75-80
  | preset (id : Text)              -- lines 83-88
  | folder                          -- lines 91-95
deriving DecidableEq, Repr

/-- What comes of it: something is opened, an error is shown, or no route fits. -/
inductive Outcome where
  | opened (t : Target)
  | failed
  | nothing
deriving DecidableEq, Repr

/-- The outcome of a handler which may throw. (`Routing.js:107-120`.) -/
def done : Option Target → Outcome
  | some t => .opened t
  | none => .failed

/-- The handler of `#controller/…`. (`Routing.js:52-64`.) -/
def onController (rest : Text) : Outcome :=
  done do
    let splat ← sammyDecode rest
    let port ← decodeURI splat
    return if port = "pyswitch-default".toList then .builtin else .controller port

/-- The handler of `#example/…`. (`Routing.js:67-72`.) -/
def onExample (rest : Text) : Outcome :=
  done do
    let splat ← sammyDecode rest
    let path ← decodeURI splat
    return .example path

/-- The handler of `#template/…`. (`Routing.js:75-80`.) -/
def onTemplate (rest : Text) : Outcome :=
  done do
    let splat ← sammyDecode rest
    let path ← decodeURI splat
    return .template path

/-- The handler of `#preset/…`. (`Routing.js:83-88`.) -/
def onPreset (rest : Text) : Outcome :=
  done do
    let splat ← sammyDecode rest
    let id ← decodeURI splat
    let id' ← decodeURI id
    return .preset id'

/-- The first route which fits is taken. A route given as a text must fit the end of the path, and no route must fit its
    start. (`Routing.js:43-95`; `route`, `lookupRoute`, `runRoute` of sammy.) -/
def route (location : Text) : Outcome :=
  let path := routablePath location
  if "#".toList.isSuffixOf path then .opened .scan
  else if "#/".toList.isSuffixOf path then .opened .scan
  else match after "#controller/".toList path with
  | some r => onController r
  | none => match after "#example/".toList path with
  | some r => onExample r
  | none => match after "#template/".toList path with
  | some r => onTemplate r
  | none => match after "#preset/".toList path with
  | some r => onPreset r
  | none => if "#localfolder".toList.isSuffixOf path then .opened .folder else .nothing

/-- `Routing.call(path)`: the location, of which the router sees the path name and what follows. (`Routing.js:146-150`,
    sammy's `fullPath`.) -/
def call (pathname path : Text) : Text := pathname ++ '#' :: encodeURI path

/-- Choosing a preset in the list, and opening a preset after it has been created. (`PySwitchUI.js:376, 490`.) -/
def choosePreset (pathname id : Text) : Text := call pathname (encodeURI ("preset/".toList ++ id))

/-- Choosing a connected controller. (`PySwitchUI.js:368`, `Controller.js:252-255`.) -/
def chooseController (pathname port : Text) : Text := call pathname (encodeURI ("controller/".toList ++ port))

/-- Choosing an example; the path begins with `/`. (`ExamplesProvider.js:30-32, 43`.) -/
def chooseExample (pathname path : Text) : Text := call pathname (encodeURI ("example".toList ++ path))

/-- Choosing a template; the path begins with `/`. (`TemplatesProvider.js:30-32, 43`.) -/
def chooseTemplate (pathname path : Text) : Text := call pathname (encodeURI ("template".toList ++ path))

/-- The folder a web configuration is loaded from. (`Routing.js:70, 78`, `WebConfiguration.js:22-27`.) -/
def folderUrl : Target → Option Text
  | .example path => some ("examples/".toList ++ encodeURI path)
  | .template path => some ("templates/".toList ++ encodeURI path)
  | .builtin => some "circuitpy".toList
  | _ => none

end PySwitch.Links
