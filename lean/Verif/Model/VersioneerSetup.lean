import Verif.Model.Versioneer

/-!
# `python versioneer.py setup`

What installing or reinstalling versioneer does to the files of the project (`versioneer.py` lines 1120-1155 and
1697-1776), given a complete section in `setup.cfg`.  A text is what reading the file in text mode yields; appending
to the file appends to the text.
-/

namespace TC.Versioneer
open TC.Tcal (Str isSpace)

/-- The loop of `s.split()`; the first argument is the word read so far (`versioneer.py` lines 1144 and 1751). -/
def wordsLoop : Str → Str → List Str
  | w, [] => if w = [] then [] else [w]
  | w, c :: s =>
    if isSpace c then
      if w = [] then wordsLoop [] s else w :: wordsLoop [] s
    else wordsLoop (w ++ [c]) s

/-- `s.split()` (`versioneer.py` lines 1144 and 1751). -/
def wordsOf (s : Str) : List Str := wordsLoop [] s

/-- `INIT_PY_SNIPPET`, `versioneer.py` lines 1690-1694. -/
def initSnippet : Str :=
  "\nfrom ._version import get_versions\n__version__ = get_versions()['version']\ndel get_versions\n".toList

/-- `sub in s` (`versioneer.py` line 1730). -/
def hasSub (sub : Str) : Str → Bool
  | [] => sub.isPrefixOf []
  | c :: s => sub.isPrefixOf (c :: s) || hasSub sub s

/-- What one line of the manifest adds to `simple_includes`, `versioneer.py` lines 1749-1751. -/
def lineIncludes (l : Str) : List Str := if "include ".toList.isPrefixOf l then (wordsOf l).drop 1 else []

/-- `simple_includes`, `versioneer.py` lines 1745-1753 (a list for the set). -/
def simpleIncludes (manifest : Str) : List Str := (linesOf manifest).flatMap lineIncludes

/-- `present`, `versioneer.py` lines 1139-1147. -/
def attributePresent (source attributes : Str) : Bool :=
  (linesOf attributes).any fun l => source.isPrefixOf (Version.strip l) &&
    ((wordsOf (Version.strip l)).drop 1).contains "export-subst".toList

/-- The files `do_setup` touches (`versioneer.py` lines 1712-1776); `none` is a file that does not exist. -/
structure Project where
  versionFile : Option Str
  initPy : Option Str
  manifest : Option Str
  attributes : Option Str

/-- What `do_setup` takes from `setup.cfg`: the path of the version file, and the text that its template makes of the
settings (`versioneer.py` lines 1711-1719). -/
structure Section where
  source : Str
  long : Str

/-- `__init__.py` beside the version file, `versioneer.py` lines 1721-1738.  Simplified: a file that exists can be
read. -/
def setupInit : Option Str → Option Str
  | none => none
  | some old => some (if hasSub initSnippet old then old else old ++ initSnippet)

/-- `MANIFEST.in`, `versioneer.py` lines 1744-1770. -/
def setupManifest (source : Str) (manifest : Option Str) : Option Str :=
  let includes := simpleIncludes (manifest.getD [])
  let m := if includes.contains "versioneer.py".toList then manifest
    else some (manifest.getD [] ++ "include versioneer.py\n".toList)
  if includes.contains source then m
  else some (m.getD [] ++ "include ".toList ++ source ++ "\n".toList)

/-- `.gitattributes`, `versioneer.py` lines 1139-1154. -/
def setupAttributes (source : Str) (attributes : Option Str) : Option Str :=
  if attributePresent source (attributes.getD []) then attributes
  else some (attributes.getD [] ++ source ++ " export-subst\n".toList)

/-- `do_setup`, `versioneer.py` lines 1697-1776, with `do_vcs_install`, lines 1120-1155.  Simplified: `setup.cfg` has
its section with all options; what is printed and what is passed to `git add` is left out. -/
def doSetup (c : Section) (t : Project) : Project :=
  { versionFile := some c.long
    initPy := setupInit t.initPy
    manifest := setupManifest c.source t.manifest
    attributes := setupAttributes c.source t.attributes }

end TC.Versioneer
