import Verif.Model.Tcal

/-!
# Model of `trading_calendars/_version.py`

Where `trading_calendars.__version__` comes from (`__init__.py` lines 40-42).
-/

namespace TC.Version
open TC.Tcal (Str isSpace)

/-- Exceptions of `_version.py`: `NotThisMethod`, lines 51-52, and those of Python. -/
inductive Err where
  | notThisMethod
  | typeError
  | attributeError
  | valueError
  deriving DecidableEq, Repr

/-- `s.strip()` of a string (`_version.py` lines 174, 244, 248 and 302). -/
def strip (s : Str) : Str := Tcal.rstrip (s.dropWhile isSpace)

/-- White space of `bytes.strip()` (`_version.py` line 96). -/
def asciiSpace (c : Char) : Bool := (9 ≤ c.toNat && c.toNat ≤ 13) || c.toNat == 32

/-- What running a command does (`_version.py` lines 70-104). -/
inductive Run where
  /-- `Popen` raises an `EnvironmentError` for each of the commands (or one that is not `ENOENT`) -/
  | fails
  | exits (code : Int) (stdout : Str)

/-- `run_command`, `_version.py` lines 70-104: output and return code.  Simplified: what the commands of the list do
together is one `Run`; the output is text from the start; nothing is printed. -/
def runCommand : Run → Option Str × Option Int
  | .fails => (none, none)
  | .exits code stdout =>
    let out := ((stdout.dropWhile asciiSpace).reverse.dropWhile asciiSpace).reverse
    if code ≠ 0 then (none, some code) else (some out, some code)

/-- What the calls of `git` in `git_pieces_from_vcs` do (`_version.py` lines 217-305). -/
structure Git where
  /-- `git rev-parse --git-dir`, lines 228-229 -/
  gitDir : Run
  /-- `git describe --tags --dirty --always --long --match PREFIX*`, lines 237-240 -/
  describe : Run
  /-- `git rev-parse HEAD`, line 245 -/
  head : Run
  /-- `git rev-list HEAD --count`, lines 296-297 -/
  count : Run
  /-- `git show -s --format=%ci HEAD`, lines 301-302 -/
  date : Run

/-- The value of a decimal digit; `dec` for those outside ASCII (`_version.py` lines 269 and 288). -/
def digit (dec : Char → Option Nat) (c : Char) : Option Nat :=
  if '0' ≤ c ∧ c ≤ '9' then some (c.toNat - 48) else if c.toNat < 128 then none else dec c

/-- `int(s)`; `none` for `ValueError`.  Simplified: only digits are accepted, no sign, white space or
underscores, which do not occur in the output of `git` (`_version.py` lines 288 and 298). -/
def intOf (dec : Char → Option Nat) (s : Str) : Option Nat :=
  if s ≠ [] ∧ s.all (fun c => (digit dec c).isSome) then
    some (s.foldl (fun n c => 10 * n + (digit dec c).getD 0) 0)
  else none

/-- `[0-9a-f]` (`_version.py` line 269). -/
def isHex (c : Char) : Bool := ('0' ≤ c ∧ c ≤ '9') ∨ ('a' ≤ c ∧ c ≤ 'f')

/-- The rest of the regular expression of `_version.py` line 269 behind its first group, `-(\d+)-g([0-9a-f]+)$`: the two
groups.  The `+` take all they can; less would not match, because `-` is no digit and the end is anchored.
`$` also matches before a newline at the end. -/
def matchRest (dec : Char → Option Nat) : Str → Option (Str × Str)
  | '-' :: r =>
    let ds := r.takeWhile fun c => (digit dec c).isSome
    match r.dropWhile (fun c => (digit dec c).isSome) with
    | '-' :: 'g' :: h =>
      let hex := h.takeWhile isHex
      let rest := h.dropWhile isHex
      if ds ≠ [] ∧ hex ≠ [] ∧ (rest = [] ∨ rest = ['\n']) then some (ds, hex) else none
    | _ => none
  | _ => none

/-- `re.search(r'^(.+)-(\d+)-g([0-9a-f]+)$', s)`, `_version.py` line 269: the first group takes as much as possible, so
its lengths from `n` down to 1 are tried. -/
def matchDescribe (dec : Char → Option Nat) (s : Str) : Nat → Option (Str × Str × Str)
  | 0 => none
  | n + 1 =>
    if (s.take (n + 1)).all (· != '\n') then
      match matchRest dec (s.drop (n + 1)) with
      | some (ds, hex) => some (s.take (n + 1), ds, hex)
      | none => matchDescribe dec s n
    else matchDescribe dec s n

/-- `s.replace(old, new, 1)` for a character `old` (`_version.py` lines 174 and 303). -/
def replaceOnce (old : Char) (new : Str) : Str → Str
  | [] => []
  | c :: cs => if c = old then new ++ cs else c :: replaceOnce old new cs

/-- `date.strip().replace(" ", "T", 1).replace(" ", "", 1)`, `_version.py` lines 174 and 303. -/
def isoDate (date : Str) : Str := replaceOnce ' ' [] (replaceOnce ' ' ['T'] (strip date))

/-- The dictionary `pieces`, `_version.py` lines 250-303.  With an error the entries from `closestTag` on are missing in
the source, and are not read. -/
structure Pieces where
  long : Str
  short : Str
  error : Option Str
  dirty : Bool
  closestTag : Option Str
  distance : Nat
  date : Option Str
  deriving DecidableEq

/-- `pieces["error"]` of `_version.py` lines 272-273; the wording is left out. -/
def unparseable (describe : Str) : Str := "unable to parse git-describe output: ".toList ++ describe

/-- `pieces["error"]` of `_version.py` lines 282-283; the wording is left out. -/
def wrongPrefix (tag : Str) : Str := "wrong tag prefix: ".toList ++ tag

/-- `git_pieces_from_vcs`, `_version.py` lines 217-305. -/
def gitPieces (dec : Char → Option Nat) (tagPrefix : Str) (git : Git) : Except Err Pieces := do
  if (runCommand git.gitDir).2 ≠ some 0 then throw .notThisMethod
  let some describeOut := (runCommand git.describe).1 | throw .notThisMethod
  let describeOut := strip describeOut
  let some fullOut := (runCommand git.head).1 | throw .notThisMethod
  let fullOut := strip fullOut
  let dirty := "-dirty".toList.isSuffixOf describeOut
  let gitDescribe := if dirty then describeOut.take (describeOut.length - 6) else describeOut
  let pieces : Pieces :=
    { long := fullOut, short := fullOut.take 7, error := none, dirty, closestTag := none, distance := 0,
      date := none }
  let date : Except Err Str := match (runCommand git.date).1 with
    | some d => .ok (isoDate d)
    | none => .error .attributeError
  if '-' ∈ gitDescribe then
    match matchDescribe dec gitDescribe gitDescribe.length with
    | none => return { pieces with error := some (unparseable describeOut) }
    | some (fullTag, ds, hex) =>
      if tagPrefix.isPrefixOf fullTag then
        let some distance := intOf dec ds | throw .valueError
        return { pieces with closestTag := some (fullTag.drop tagPrefix.length), distance, short := hex,
                             date := some (← date) }
      else return { pieces with error := some (wrongPrefix fullTag) }
  else
    let some countOut := (runCommand git.count).1 | throw .typeError
    let some distance := intOf dec countOut | throw .valueError
    return { pieces with distance, date := some (← date) }

/-- `'%d' % n` (`_version.py` lines 315-442). -/
def decimal (n : Nat) : Str := Nat.toDigits 10 n

/-- `pieces["closest-tag"]` is neither `None` nor empty (`_version.py` lines 322-442). -/
def Pieces.tag (p : Pieces) : Option Str :=
  match p.closestTag with
  | some (c :: cs) => some (c :: cs)
  | _ => none

/-- `plus_or_dot`, `_version.py` lines 308-312, for a tag. -/
def plusOrDot (tag : Str) : Str := if '+' ∈ tag then ['.'] else ['+']

/-- `render_pep440`, `_version.py` lines 315-337. -/
def renderPep440 (p : Pieces) : Str :=
  match p.tag with
  | some tag =>
    if p.distance ≠ 0 ∨ p.dirty then
      tag ++ plusOrDot tag ++ (decimal p.distance ++ ".g".toList ++ p.short) ++
        (if p.dirty then ".dirty".toList else [])
    else tag
  | none => "0+untagged.".toList ++ decimal p.distance ++ ".g".toList ++ p.short ++
      (if p.dirty then ".dirty".toList else [])

/-- `render_pep440_pre`, `_version.py` lines 340-353. -/
def renderPep440Pre (p : Pieces) : Str :=
  match p.tag with
  | some tag => if p.distance ≠ 0 then tag ++ ".post.dev".toList ++ decimal p.distance else tag
  | none => "0.post.dev".toList ++ decimal p.distance

/-- `render_pep440_post`, `_version.py` lines 356-380. -/
def renderPep440Post (p : Pieces) : Str :=
  match p.tag with
  | some tag =>
    if p.distance ≠ 0 ∨ p.dirty then
      tag ++ ".post".toList ++ decimal p.distance ++ (if p.dirty then ".dev0".toList else []) ++
        plusOrDot tag ++ ('g' :: p.short)
    else tag
  | none => "0.post".toList ++ decimal p.distance ++ (if p.dirty then ".dev0".toList else []) ++
      "+g".toList ++ p.short

/-- `render_pep440_old`, `_version.py` lines 383-402. -/
def renderPep440Old (p : Pieces) : Str :=
  match p.tag with
  | some tag =>
    if p.distance ≠ 0 ∨ p.dirty then
      tag ++ ".post".toList ++ decimal p.distance ++ (if p.dirty then ".dev0".toList else [])
    else tag
  | none => "0.post".toList ++ decimal p.distance ++ (if p.dirty then ".dev0".toList else [])

/-- `render_git_describe`, `_version.py` lines 405-422. -/
def renderGitDescribe (p : Pieces) : Str :=
  (match p.tag with
   | some tag => if p.distance ≠ 0 then tag ++ "-".toList ++ decimal p.distance ++ "-g".toList ++ p.short else tag
   | none => p.short) ++ (if p.dirty then "-dirty".toList else [])

/-- `render_git_describe_long`, `_version.py` lines 425-442. -/
def renderGitDescribeLong (p : Pieces) : Str :=
  (match p.tag with
   | some tag => tag ++ "-".toList ++ decimal p.distance ++ "-g".toList ++ p.short
   | none => p.short) ++ (if p.dirty then "-dirty".toList else [])

/-- The dictionary that `get_versions` returns (`_version.py` lines 477-520). -/
structure Info where
  version : Str
  fullRevision : Option Str
  dirty : Option Bool
  error : Option Str
  date : Option Str
  deriving DecidableEq

/-- `render`, `_version.py` lines 445-474. -/
def render (p : Pieces) (style : String) : Except Err Info :=
  match p.error with
  | some e => .ok { version := "unknown".toList, fullRevision := some p.long, dirty := none, error := some e, date := none }
  | none =>
    let style := if style = "" ∨ style = "default" then "pep440" else style
    let rendered : Except Err Str :=
      if style = "pep440" then .ok (renderPep440 p)
      else if style = "pep440-pre" then .ok (renderPep440Pre p)
      else if style = "pep440-post" then .ok (renderPep440Post p)
      else if style = "pep440-old" then .ok (renderPep440Old p)
      else if style = "git-describe" then .ok (renderGitDescribe p)
      else if style = "git-describe-long" then .ok (renderGitDescribeLong p)
      else .error .valueError
    match rendered with
    | .error e => .error e
    | .ok v => .ok { version := v, fullRevision := some p.long, dirty := some p.dirty, error := none, date := p.date }

/-! ### Keywords -/

/-- `get_keywords`, `_version.py` lines 20-30: the three strings, which `git archive` replaces. -/
structure Keywords where
  refnames : Str
  full : Str
  date : Str

/-- The keywords of a checked out tree, `_version.py` lines 26-28. -/
def unexpanded : Keywords := ⟨"$Format:%d$".toList, "$Format:%H$".toList, "$Format:%ci$".toList⟩

/-- `s.strip(chars)` (`_version.py` line 180). -/
def stripChars (chars : List Char) (s : Str) : Str :=
  ((s.dropWhile (fun c => decide (c ∈ chars))).reverse.dropWhile (fun c => decide (c ∈ chars))).reverse

/-- `s.split(sep)` for a character (`_version.py` line 180). -/
def splitOn (sep : Char) : Str → List Str
  | [] => [[]]
  | c :: cs =>
    if c = sep then [] :: splitOn sep cs
    else match splitOn sep cs with
      | [] => [[c]]
      | w :: ws => (c :: w) :: ws

/-- One step of `sorted` on strings (`_version.py` line 198). -/
def insertStr (x : Str) : List Str → List Str
  | [] => [x]
  | y :: ys => if x < y then x :: y :: ys else y :: insertStr x ys

/-- `sorted` on strings (`_version.py` line 198). -/
def sortStr (xs : List Str) : List Str := xs.foldr insertStr []

/-- `git_versions_from_keywords`, `_version.py` lines 162-213.  Sets are lists: that a list has an element twice changes
nothing in the search through it. -/
def versionsFromKeywords (dec : Char → Option Nat) (k : Keywords) (tagPrefix : Str) : Except Err Info :=
  let date := isoDate k.date
  let refnames := strip k.refnames
  if "$Format".toList.isPrefixOf refnames then .error .notThisMethod
  else
    let refs := (splitOn ',' (stripChars ['(', ')'] refnames)).map strip
    let tags := (refs.filter fun r => "tag: ".toList.isPrefixOf r).map fun r => r.drop 5
    let tags := if tags = [] then refs.filter fun r => r.any fun c => (digit dec c).isSome else tags
    match (sortStr tags).find? fun r => tagPrefix.isPrefixOf r with
    | some r => .ok { version := r.drop tagPrefix.length, fullRevision := some (strip k.full), dirty := some false, error := none, date := some date }
    | none => .ok { version := "0+unknown".toList, fullRevision := some (strip k.full), dirty := some false,
                    error := some "no suitable tags".toList, date := none }

/-! ### The directory -/

/-- `os.path.basename` on POSIX: what follows the last slash (`_version.py` line 117). -/
def basename (path : Str) : Str := (path.reverse.takeWhile (· != '/')).reverse

/-- `os.path.dirname` on POSIX: what precedes it, without slashes at the end unless there is nothing else
(`_version.py` lines 124 and 499). -/
def dirname (path : Str) : Str :=
  let head := (path.reverse.dropWhile (· != '/')).reverse
  if head.all (· == '/') then head else (head.reverse.dropWhile (· == '/')).reverse

/-- The loop of `versions_from_parentdir`, `_version.py` lines 116-124. -/
def parentLoop (parentPrefix : Str) : Nat → Str → Except Err Info
  | 0, _ => .error .notThisMethod
  | n + 1, root =>
    let name := basename root
    if parentPrefix.isPrefixOf name then
      .ok { version := name.drop parentPrefix.length, fullRevision := none, dirty := some false, error := none, date := none }
    else parentLoop parentPrefix n (dirname root)

/-- `versions_from_parentdir`, `_version.py` lines 107-129. -/
def versionsFromParentdir (parentPrefix root : Str) : Except Err Info := parentLoop parentPrefix 3 root

/-! ### All together -/

/-- What `get_versions` depends on: the keywords, `os.path.realpath(__file__)` (`none` if there is no
`__file__`), and what `git` does in a directory (`_version.py` lines 477-520). -/
structure World where
  dec : Char → Option Nat
  keywords : Keywords
  file : Option Str
  git : (root : Str) → Git

/-- `get_config`, `_version.py` lines 37-48: the tag prefix. -/
def tagPrefix : Str := []
/-- `get_config`, `_version.py` line 45: the prefix of the directory name. -/
def parentdirPrefix : Str := "calendars-".toList
/-- `get_config`, `_version.py` line 43. -/
def style : String := "pep440"

/-- `_version.py` lines 501-504 and 518-520. -/
def unknown (error : String) : Info :=
  { version := "0+unknown".toList, fullRevision := none, dirty := none, error := some error.toList, date := none }

/-- `get_versions`, `_version.py` lines 477-520.  `versionfile_source` (line 46) has two components, so the root is two
levels above the file. -/
def getVersions (w : World) : Except Err Info :=
  match versionsFromKeywords w.dec w.keywords tagPrefix with
  | .ok i => .ok i
  | .error e =>
    if e ≠ .notThisMethod then .error e
    else match w.file with
      | none => .ok (unknown "unable to find root of source tree")
      | some file =>
        let root := dirname (dirname file)
        match (gitPieces w.dec tagPrefix (w.git root) >>= fun p => render p style) with
        | .ok i => .ok i
        | .error e =>
          if e ≠ .notThisMethod then .error e
          else match versionsFromParentdir parentdirPrefix root with
            | .ok i => .ok i
            | .error e =>
              if e ≠ .notThisMethod then .error e else .ok (unknown "unable to compute version")

end TC.Version
