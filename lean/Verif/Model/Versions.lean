/-!
Model of the publication of several versions of the emulator on one web server: the list of versions
(`web/publish-helper/htdocs/versions/src/PySwitchVersions.php`), the rules for the web server which are written for it (`PySwitchUpdater.php`) and the page which links to the
versions (`index.php`).

The rules are interpreted as documented for Apache's `mod_rewrite`: the rule applies if none of the negated patterns is found in the path of the request, and after it has been applied
the new path is looked at again. In a pattern, a dot stands for any character; the other characters of names stand for themselves (names with other special characters of
patterns, or with spaces, are left out). Query strings are left out.
-/

namespace PySwitch.Versions

abbrev Text := List Char

/-- An entry of the web root. (`DirectoryIterator`, `PySwitchVersions.php:16-20`.) -/
structure Node where
  name : Text
  isDir : Bool := true
  isDot : Bool := false
  mtime : Int
deriving Repr, DecidableEq

/-- `PySwitchVersions.php:22-25`. -/
structure Version where
  name : Text
  mtime : Int
deriving Repr, DecidableEq

/-- `PySwitchVersions.php:20`. -/
def isVersion (n : Node) : Bool := !(!n.isDir || n.isDot || "versions".toList.isPrefixOf n.name)

/-- `usort` with the comparison `PySwitchVersions.php:28-30` (PHP's sort keeps the order of equal elements): inserts one element. -/
def insert (a : Version) : List Version → List Version
  | [] => [a]
  | b :: rest => if b.mtime - a.mtime ≤ 0 then a :: b :: rest else b :: insert a rest

/-- `usort`, see `insert`. (`PySwitchVersions.php:28-30`.) -/
def sort : List Version → List Version
  | [] => []
  | a :: rest => insert a (sort rest)

/-- `PySwitchVersions.php:15-33` `get`. -/
def getVersions (nodes : List Node) : List Version := sort ((nodes.filter isVersion).map fun n => ⟨n.name, n.mtime⟩)

/-- The part of the path which all versions have in common. (`PySwitchUpdater.php:41, 50`.) -/
def htdocs : Text := "/PySwitch/web/htdocs/".toList

/-- What is written to the file `.htaccess`: the negated patterns, and the name in the rule. (`PySwitchUpdater.php:31-52`.) -/
structure Rules where
  conds : List Text
  latest : Text
deriving Repr, DecidableEq

/-- `PySwitchUpdater.php:13-52` `process`, `render_htaccess`: `none` without versions, then the file is left as it is. -/
def rules (versions : List Version) : Option Rules :=
  match versions with
  | [] => none
  | v :: _ => some ⟨"/versions".toList :: versions.map fun w => w.name ++ htdocs, v.name⟩

/-- A pattern at the beginning of a text. (Apache, see above. `PySwitchUpdater.php:33, 41`.) -/
def matchHere : Text → Text → Bool
  | [], _ => true
  | _ :: _, [] => false
  | p :: ps, c :: cs => (p == '.' || p == c) && matchHere ps cs

/-- A pattern anywhere in a text. (Apache, see above. `PySwitchUpdater.php:33, 41`.) -/
def found (p : Text) : Text → Bool
  | [] => matchHere p []
  | c :: cs => matchHere p (c :: cs) || found p cs

/-- The rule: the new path, `none` if it does not apply. The path is without its first slash in `$1`. (`PySwitchUpdater.php:50`.) -/
def rewrite (r : Rules) (uri : Text) : Option Text :=
  if r.conds.any fun p => found p uri then none
  else some ('/' :: r.latest ++ htdocs ++ uri.drop 1)

/-- The path which is served in the end: the rule is applied as long as it applies, but at most `n` times (`none` if this is not enough, an error of the web server).
(Apache, see above. `PySwitchUpdater.php:50`.) -/
def serve (r : Rules) : Nat → Text → Option Text
  | 0, _ => none
  | n + 1, uri =>
    match rewrite r uri with
    | none => some uri
    | some u => serve r n u

/-- `index.php:26`: the link to a version. -/
def link (v : Version) : Text := '/' :: v.name ++ "/PySwitch/web/htdocs".toList

/-- `index.php:18-36`: the links with their texts. -/
def page (versions : List Version) : List (Text × Text) :=
  versions.zipIdx.map fun x => (link x.1, x.1.name ++ if x.2 = 0 then " (latest)".toList else [])

end PySwitch.Versions
