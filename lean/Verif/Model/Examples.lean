import Verif.Model.Links
/-!
Model of the trees of examples and templates which the web application offers (`web/htdocs/js/ui/examples/ExamplesProvider.js:21-146`, `TemplatesProvider.js:21-83`), built
from the folders on the server (`examples/toc.php:6-36`, `web/htdocs/templates/toc.php`). How the popup shows a tree is the subject of `Model/Browser.lean`, where its links lead the
subject of `Model/Links.lean`.

Simplified: the columns of the listing are left out.
-/
namespace PySwitch.Examples

abbrev Text := List Char

/-- A folder or a file on the server. (`examples/toc.php:11-23`.) -/
inductive Node where
  | dir (name : Text) (children : List Node)
  | file (name : Text)

/-- The name of a folder or file. (`examples/toc.php:14, 21`.) -/
def Node.name : Node → Text
  | .dir n _ => n
  | .file n => n

/-- `e.type == "dir"`. (`ExamplesProvider.js:37`.) -/
def Node.isDir : Node → Bool
  | .dir _ _ => true
  | .file _ => false

/-- The table of contents for the contents of the folder. (`examples/toc.php:28-35`.) -/
def toc (children : List Node) : Node := .dir [] children

/-- What an entry does when it is selected: it opens the folder with this path, or the default configuration. (`ExamplesProvider.js:30-32, 129`, `TemplatesProvider.js:30-32`.) -/
inductive Choice where
  | folder (path : Text)
  | default
deriving DecidableEq, Repr

/-- An entry of the tree. (`BrowserEntry.js:27-50`.) -/
inductive Item where
  | mk (value : Text) (onSelect : Option Choice) (children : List Item)

/-- `BrowserEntry.js:6, 31`. -/
def Item.value : Item → Text
  | .mk v _ _ => v

/-- `BrowserEntry.js:190-199`. -/
def Item.onSelect : Item → Option Choice
  | .mk _ s _ => s

/-- `BrowserEntry.js:9`. -/
def Item.children : Item → List Item
  | .mk _ _ c => c

/-- `includes` of JavaScript. (`ExamplesProvider.js:109`.) -/
def includes (pat : Text) : Text → Bool
  | [] => pat.isPrefixOf []
  | c :: r => pat.isPrefixOf (c :: r) || includes pat r

/-- `ExamplesProvider.js:109`: folders (and files) which are left out. -/
def skipped (name : Text) : Bool := includes "MIDI Routings".toList name || includes "Multiboot".toList name

mutual
/-- `ExamplesProvider.js:35-117` `crawl`, `TemplatesProvider.js:35-73`. `skip` tells which children are left out (none for templates). -/
def crawl (skip : Text → Bool) (pre : Text) : Node → Item
  | .dir n cs =>
    if (cs.filter Node.isDir).length = 0 then .mk n (some (.folder (pre ++ n))) []
    else .mk n none (crawlAll skip (pre ++ n ++ ['/']) cs)
  | .file n => .mk n none []

/-- The loop `ExamplesProvider.js:107-114`, `TemplatesProvider.js:66-70`. -/
def crawlAll (skip : Text → Bool) (pre : Text) : List Node → List Item
  | [] => []
  | c :: cs => if skip c.name then crawlAll skip pre cs else crawl skip pre c :: crawlAll skip pre cs
end

/-- `ExamplesProvider.js:119-141`: the tree of examples, with the default configuration at its top. (The text of the root is left out.) -/
def examples (children : List Node) : Item :=
  match crawl skipped [] (toc children) with
  | .mk v s cs => .mk v s (.mk "PySwitch Default".toList (some .default) [] :: cs)

/-- `TemplatesProvider.js:75-80`: the tree of templates. -/
def templates (children : List Node) : Item := crawl (fun _ => false) [] (toc children)

/-- Where selecting an entry of the examples leads to. (`ExamplesProvider.js:30-32, 129`, `Controller.js:252-255`.) -/
def openExample (pathname : Text) : Choice → Text
  | .folder path => Links.chooseExample pathname path
  | .default => Links.chooseController pathname "pyswitch-default".toList

/-- Where selecting an entry of the templates leads to. (`TemplatesProvider.js:30-32`.) -/
def openTemplate (pathname : Text) : Choice → Text
  | .folder path => Links.chooseTemplate pathname path
  | .default => Links.chooseController pathname "pyswitch-default".toList

end PySwitch.Examples
