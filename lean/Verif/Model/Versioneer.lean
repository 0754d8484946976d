import Verif.Model.Version

/-!
# Model of the part of `versioneer.py` that `setup.py` uses

How `setup.py` finds the version of a source tree (`versioneer.py` lines 944-1475), what it writes into
distributions (lines 1183-1226), and what the package reads from there when it is imported.
-/

namespace TC.Versioneer
open TC.Version (Info Git Keywords strip isoDate gitPieces render versionsFromKeywords versionsFromParentdir)
open TC.Tcal (Str isSpace)

/-- Exceptions of `versioneer.py`: those of `_version.py` (the functions are the same), and `KeyError` (lines 987 and
1017). -/
inductive Err where
  | version (e : Version.Err)
  | keyError
  deriving DecidableEq, Repr

/-- `NotThisMethod`, `versioneer.py` lines 364-365. -/
def notThisMethod : Err := .version .notThisMethod

/-! ### Keywords -/

/-- The lines of a text (`versioneer.py` line 954), without the line feeds at their ends: neither `strip` nor the regular
expression of the next definitions sees them. Text mode has made line feeds of the other ends of lines. -/
def linesOf : Str → List Str
  | [] => [[]]
  | c :: s =>
    match linesOf s with
    | [] => [[]]
    | l :: ls => if c = '\n' then [] :: l :: ls else (c :: l) :: ls

/-- `(.*)"` from the current place on (`versioneer.py` lines 956, 960 and 964): up to the last quotation mark. -/
def untilLastQuote : Str → Option Str
  | [] => none
  | c :: s =>
    match untilLastQuote s with
    | some g => some (c :: g)
    | none => if c = '"' then some [] else none

/-- `re.search(r'=\s*"(.*)"', line)` (`versioneer.py` lines 956, 960 and 964): the group. -/
def searchQuoted : Str → Option Str
  | [] => none
  | c :: s =>
    if c = '=' then
      match s.dropWhile isSpace with
      | '"' :: t => match untilLastQuote t with
        | some g => some g
        | none => searchQuoted s
      | _ => searchQuoted s
    else searchQuoted s

/-- The dictionary of `git_get_keywords`, `versioneer.py` lines 951-970. -/
structure Found where
  refnames : Option Str := none
  full : Option Str := none
  date : Option Str := none
  deriving DecidableEq, Repr

/-- One of the three conditions of the loop (`versioneer.py` lines 955-958, 959-962 and 963-966): the new entry. -/
def entryAfter (name : String) (old : Option Str) (line : Str) : Option Str :=
  if (name.toList ++ " =".toList).isPrefixOf (strip line) then
    match searchQuoted line with
    | some g => some g
    | none => old
  else old

/-- `git_get_keywords`, `versioneer.py` lines 944-970; `none` is a file that cannot be read. -/
def getKeywords : Option Str → Found
  | none => {}
  | some text => (linesOf text).foldl (fun k line =>
      { refnames := entryAfter "git_refnames" k.refnames line
        full := entryAfter "git_full" k.full line
        date := entryAfter "git_date" k.date line }) {}

/-- `git_versions_from_keywords`, `versioneer.py` lines 973-1025, which is that of `_version.py` (lines 162-213), on a
dictionary that may lack entries. -/
def fromKeywords (dec : Char → Option Nat) (k : Found) (tagPrefix : Str) : Except Err Info :=
  if k = {} then .error notThisMethod
  else match k.refnames with
    | none => .error .keyError
    | some r =>
      if "$Format".toList.isPrefixOf (strip r) then .error notThisMethod
      else match k.full with
        | none => .error .keyError
        | some f =>
          match versionsFromKeywords dec ⟨r, f, k.date.getD []⟩ tagPrefix with
          | .ok i => .ok (if k.date = none then { i with date := none } else i)
          | .error e => .error (.version e)

/-! ### JSON -/

/-- The values in the dictionaries of versions (`versioneer.py` lines 1016-1025, 1171-1172 and 1393-1395). -/
inductive Json where
  | null
  | bool (b : Bool)
  | str (s : Str)
  deriving DecidableEq, Repr

/-- `'{0:04x}'.format(n)` for `json.dumps` (`versioneer.py` line 1221). -/
def hex4 (n : Nat) : Str :=
  [Nat.digitChar (n / 4096 % 16), Nat.digitChar (n / 256 % 16), Nat.digitChar (n / 16 % 16), Nat.digitChar (n % 16)]

/-- A character in a string of `json.dumps` (`versioneer.py` line 1221). -/
def escapeChar (c : Char) : Str :=
  if c = '"' then ['\\', '"']
  else if c = '\\' then ['\\', '\\']
  else if c = '\n' then ['\\', 'n']
  else if c = '\r' then ['\\', 'r']
  else if c = '\t' then ['\\', 't']
  else if c.toNat = 8 then ['\\', 'b']
  else if c.toNat = 12 then ['\\', 'f']
  else if 32 ≤ c.toNat ∧ c.toNat ≤ 126 then [c]
  else if c.toNat < 0x10000 then ['\\', 'u'] ++ hex4 c.toNat
  else ['\\', 'u'] ++ hex4 (0xD800 + (c.toNat - 0x10000) / 1024) ++
    (['\\', 'u'] ++ hex4 (0xDC00 + (c.toNat - 0x10000) % 1024))

/-- A value of `json.dumps` (`versioneer.py` line 1221); `escape` writes the characters of strings. -/
def dumpsValue (escape : Char → Str) : Json → Str
  | .null => "null".toList
  | .bool true => "true".toList
  | .bool false => "false".toList
  | .str s => ['"'] ++ s.flatMap escape ++ ['"']

/-- The entries of a dictionary of `json.dumps` with `indent=1, separators=(",", ": ")` (`versioneer.py` lines
1221-1222), from the first on. -/
def dumpsEntries (escape : Char → Str) : List (Str × Json) → Str
  | [] => []
  | [(k, v)] => dumpsValue escape (.str k) ++ ": ".toList ++ dumpsValue escape v
  | (k, v) :: e :: es =>
    dumpsValue escape (.str k) ++ ": ".toList ++ dumpsValue escape v ++ ",\n ".toList ++ dumpsEntries escape (e :: es)

/-- `json.dumps` of a dictionary (`versioneer.py` lines 1221-1222). -/
def dumpsWith (escape : Char → Str) (d : List (Str × Json)) : Str :=
  "{\n ".toList ++ dumpsEntries escape d ++ "\n}".toList

@[inherit_doc dumpsWith]
def dumps (d : List (Str × Json)) : Str := dumpsWith escapeChar d

/-- A string or `None` (`versioneer.py` line 1221). -/
def jsonOf : Option Str → Json
  | none => .null
  | some s => .str s

/-- The dictionary of versions (`versioneer.py` lines 1393-1395) in the order of its keys (`sort_keys`, line 1221). -/
def dictOf (i : Info) : List (Str × Json) :=
  [("date".toList, jsonOf i.date), ("dirty".toList, match i.dirty with | none => .null | some b => .bool b),
   ("error".toList, jsonOf i.error), ("full-revisionid".toList, jsonOf i.fullRevision),
   ("version".toList, .str i.version)]

/-- The value of a hexadecimal digit (`json.loads`, `versioneer.py` line 1215; `version_json`, line 1191). -/
def hexValue (c : Char) : Option Nat :=
  if '0' ≤ c ∧ c ≤ '9' then some (c.toNat - 48)
  else if 'a' ≤ c ∧ c ≤ 'f' then some (c.toNat - 87)
  else if 'A' ≤ c ∧ c ≤ 'F' then some (c.toNat - 55)
  else none

/-- The value of four hexadecimal digits (`versioneer.py` lines 1191 and 1215). -/
def hexOf (a b c d : Char) : Option Nat :=
  match hexValue a, hexValue b, hexValue c, hexValue d with
  | some a, some b, some c, some d => some (4096 * a + 256 * b + 16 * c + d)
  | _, _, _, _ => none

/-- The character after a backslash in a string of JSON, except `u` (`json.loads`, `versioneer.py` line 1215). -/
def unescape (c : Char) : Option Char :=
  if c = '"' then some '"' else if c = '\\' then some '\\' else if c = '/' then some '/'
  else if c = 'b' then some (Char.ofNat 8) else if c = 'f' then some (Char.ofNat 12)
  else if c = 'n' then some '\n' else if c = 'r' then some '\r' else if c = 't' then some '\t' else none

/-- A string of JSON behind its first quotation mark (`json.loads`, `versioneer.py` line 1215): the string and the rest of
the text.  Each character takes one unit of `fuel`.  Simplified: a surrogate without its partner is an error here, Python
makes a character of it that is none. -/
def scanString : (fuel : Nat) → Str → Option (Str × Str)
  | 0, _ => none
  | _ + 1, [] => none
  | n + 1, x :: s =>
    if x = '"' then some ([], s)
    else if x = '\\' then
      match s with
      | 'u' :: a :: b :: c :: d :: r =>
        match hexOf a b c d with
        | none => none
        | some u =>
          if 0xD800 ≤ u ∧ u < 0xDC00 then
            match r with
            | '\\' :: 'u' :: a' :: b' :: c' :: d' :: r' =>
              match hexOf a' b' c' d' with
              | none => none
              | some v =>
                if 0xDC00 ≤ v ∧ v < 0xE000 then
                  (scanString n r').map fun p => (Char.ofNat (0x10000 + (u - 0xD800) * 1024 + (v - 0xDC00)) :: p.1, p.2)
                else none
            | _ => none
          else if 0xDC00 ≤ u ∧ u < 0xE000 then none
          else (scanString n r).map fun p => (Char.ofNat u :: p.1, p.2)
      | e :: r =>
        match unescape e with
        | none => none
        | some ch => (scanString n r).map fun p => (ch :: p.1, p.2)
      | [] => none
    else if x.toNat < 32 then none
    else (scanString n s).map fun p => (x :: p.1, p.2)

/-- White space between the parts of JSON (`json.loads`, `versioneer.py` line 1215). -/
def skipSpace (s : Str) : Str := s.dropWhile fun c => c == ' ' || c == '\n' || c == '\t' || c == '\r'

/-- What follows `p` in `s` (`json.loads`, `versioneer.py` line 1215, and the searches of lines 1208-1212). -/
def after? (p s : Str) : Option Str := if p.isPrefixOf s then some (s.drop p.length) else none

/-- A value (`json.loads`, `versioneer.py` line 1215).  Simplified: numbers, lists and dictionaries are errors here. -/
def scanValue (s : Str) : Option (Json × Str) :=
  match s with
  | '"' :: r => (scanString r.length r).map fun p => (.str p.1, p.2)
  | _ =>
    match after? "null".toList s, after? "true".toList s, after? "false".toList s with
    | some r, _, _ => some (.null, r)
    | _, some r, _ => some (.bool true, r)
    | _, _, some r => some (.bool false, r)
    | _, _, _ => none

/-- The entries of a dictionary up to its end (`json.loads`, `versioneer.py` line 1215); each takes one unit of `fuel`. -/
def scanEntries : (fuel : Nat) → Str → Option (List (Str × Json) × Str)
  | 0, _ => none
  | n + 1, s =>
    match skipSpace s with
    | '"' :: r =>
      match scanString r.length r with
      | none => none
      | some (k, r) =>
        match skipSpace r with
        | ':' :: r =>
          match scanValue (skipSpace r) with
          | none => none
          | some (v, r) =>
            match skipSpace r with
            | ',' :: r => (scanEntries n r).map fun p => ((k, v) :: p.1, p.2)
            | '}' :: r => some ([(k, v)], r)
            | _ => none
        | _ => none
    | _ => none

/-- `json.loads` (`versioneer.py` lines 1197 and 1215), for dictionaries; `none` is a `ValueError`. -/
def loads (s : Str) : Option (List (Str × Json)) :=
  match skipSpace s with
  | '{' :: r =>
    match scanEntries r.length r with
    | some (d, r) => if skipSpace r = [] then some d else none
    | none => none
  | _ => none

/-- A string or `None` from an entry of the dictionary (`versioneer.py` line 1215). -/
def optionOf : Option Json → Option (Option Str)
  | some .null => some none
  | some (.str s) => some (some s)
  | _ => none

/-- A truth value or `None` from an entry of the dictionary (`versioneer.py` line 1215). -/
def flagOf : Option Json → Option (Option Bool)
  | some .null => some none
  | some (.bool b) => some (some b)
  | _ => none

/-- The dictionary of versions that was read (`versioneer.py` line 1215).  Of equal keys the last counts.  Simplified:
dictionaries without the five entries, or with entries of other types, are not told apart from no dictionary. -/
def infoOf (d : List (Str × Json)) : Option Info :=
  let get := fun k : String => d.reverse.lookup k.toList
  match get "version", optionOf (get "full-revisionid"), flagOf (get "dirty"), optionOf (get "error"), optionOf (get "date") with
  | some (.str v), some f, some b, some e, some t =>
    some { version := v, fullRevision := f, dirty := b, error := e, date := t }
  | _, _, _, _, _ => none

/-! ### The file -/

/-- `SHORT_VERSION_PY` up to the quotation marks, `versioneer.py` lines 1183-1191. -/
def shortHead : Str :=
  ("\n# This file was generated by 'versioneer.py' (0.18) from\n" ++
   "# revision-control system data, or from the parent directory name of an\n" ++
   "# unpacked source archive. Distribution tarballs contain a pre-generated copy\n" ++
   "# of this file.\n" ++
   "\nimport json\n\nversion_json = '''").toList

/-- `SHORT_VERSION_PY` from the closing quotation marks on, `versioneer.py` lines 1193-1198. -/
def shortTail : Str :=
  ("'''  # END VERSION_JSON\n\n\ndef get_versions():\n    return json.loads(version_json)\n").toList

/-- `write_to_version_file`, `versioneer.py` lines 1218-1226: the new contents. -/
def shortFile (i : Info) : Str := shortHead ++ ['\n'] ++ dumps (dictOf i) ++ ['\n'] ++ shortTail

/-- What follows the first `p` in the text (`versioneer.py` lines 1208-1212). -/
def afterFirst (p : Str) : Str → Option Str
  | [] => after? p []
  | c :: s => match after? p (c :: s) with
    | some r => some r
    | none => afterFirst p s

/-- What precedes the last `p` in the text (`versioneer.py` lines 1208-1212). -/
def beforeLast (p : Str) : Str → Option Str
  | [] => if p.isPrefixOf [] then some [] else none
  | c :: s => match beforeLast p s with
    | some r => some (c :: r)
    | none => if p.isPrefixOf (c :: s) then some [] else none

/-- One of the searches of `versions_from_file`, `versioneer.py` lines 1208-1212: the first opening with the last closing
behind it.  If there is no closing behind the first opening, there is none behind the others. -/
def searchJson (opening : String) (contents : Str) : Option Str :=
  match afterFirst opening.toList contents with
  | some r => beforeLast "'''  # END VERSION_JSON".toList r
  | none => none

/-- `versions_from_file`, `versioneer.py` lines 1201-1215; `none` is a file that cannot be read. -/
def versionsFromFile : Option Str → Except Err Info
  | none => .error notThisMethod
  | some contents =>
    match (match searchJson "version_json = '''\n" contents with
      | some g => some g
      | none => searchJson "version_json = '''\r\n" contents) with
    | none => .error notThisMethod
    | some g => match (loads g).bind infoOf with
      | some i => .ok i
      | none => .error (.version .valueError)

/-! ### `setup.py` -/

/-- A source tree: the contents of its `_version.py`, its directory, and what `git` does there (`versioneer.py` lines
1402-1475); `dec` is what `int` makes of digits outside ASCII. -/
structure Tree where
  dec : Char → Option Nat
  versionFile : Option Str
  root : Str
  git : Git

/-- `tag_prefix` of `setup.cfg` line 16, by `versioneer.py` lines 356-358. -/
def tagPrefix : Str := []
/-- `parentdir_prefix` of `setup.cfg` line 17. -/
def parentdirPrefix : Str := "trading_calendars-".toList
/-- `style` of `setup.cfg` line 13. -/
def style : String := "pep440"

/-- `versioneer.py` lines 1473-1475. -/
def unknown : Info :=
  { version := "0+unknown".toList, fullRevision := none, dirty := none,
    error := some "unable to compute version".toList, date := none }

/-- `get_versions`, `versioneer.py` lines 1402-1475, with the settings of `setup.cfg`.  `git_pieces_from_vcs` (1029-1117),
`render` (1366-1395) and `versions_from_parentdir` (1158-1180) are those of `_version.py`. -/
def setupVersions (t : Tree) : Except Err Info :=
  match fromKeywords t.dec (getKeywords t.versionFile) tagPrefix with
  | .ok i => .ok i
  | .error e =>
    if e ≠ notThisMethod then .error e
    else match versionsFromFile t.versionFile with
      | .ok i => .ok i
      | .error e =>
        if e ≠ notThisMethod then .error e
        else match (gitPieces t.dec tagPrefix t.git >>= fun p => render p style) with
          | .ok i => .ok i
          | .error e =>
            if e ≠ .notThisMethod then .error (.version e)
            else match versionsFromParentdir parentdirPrefix t.root with
              | .ok i => .ok i
              | .error e => if e ≠ .notThisMethod then .error (.version e) else .ok unknown

/-! ### The import -/

/-- The value of a string of Python behind the first `'''`, and what follows the closing `'''` (`versioneer.py` lines
1191-1193); each character takes one unit of `fuel`.  Simplified: of the sequences with a backslash only those that
`json.dumps` writes are read, and surrogates are errors. -/
def scanLiteral : (fuel : Nat) → Str → Option (Str × Str)
  | 0, _ => none
  | _ + 1, [] => none
  | n + 1, x :: s =>
    if "'''".toList.isPrefixOf (x :: s) then some ([], s.drop 2)
    else if x = '\\' then
      match s with
      | 'u' :: a :: b :: c :: d :: r =>
        match hexOf a b c d with
        | none => none
        | some u => if 0xD800 ≤ u ∧ u < 0xE000 then none
          else (scanLiteral n r).map fun p => (Char.ofNat u :: p.1, p.2)
      | e :: r =>
        match unescape e with
        | none => none
        | some ch => if e = '/' then none else (scanLiteral n r).map fun p => (ch :: p.1, p.2)
      | [] => none
    else (scanLiteral n s).map fun p => (x :: p.1, p.2)

/-- `get_versions` of the file that `setup.py` wrote (`versioneer.py` lines 1183-1198, called by
`trading_calendars/__init__.py` lines 40-42); `none` is an error.  Simplified: files of other shapes are errors. -/
def importVersions (contents : Str) : Option Info :=
  match after? shortHead contents with
  | none => none
  | some r => match scanLiteral r.length r with
    | none => none
    | some (json, rest) =>
      if "'''".toList ++ rest = shortTail then (loads json).bind infoOf else none

/-! ### Archives -/

/-- Whether `git archive` replaces the keywords in the file, by `.gitattributes` line 1: the pattern has a slash and no
wildcards, so it stands for one path. -/
def exportSubst (path : String) : Bool := path == "calendars/_version.py"

/-- `versionfile_source` of `setup.cfg` line 14: the path of `_version.py`. -/
def versionfileSource : String := "trading_calendars/_version.py"

/-- The keywords in `_version.py` (lines 26-28) of an archive made by `git archive`. -/
def archivedKeywords (expanded : Keywords) : Keywords :=
  if exportSubst versionfileSource then expanded else Version.unexpanded

end TC.Versioneer
