import Verif.Model.Version
import Verif.Spec.Tcal

/-!
# Specification vocabulary for the version of the package
-/

namespace TC.Spec
open TC.Tcal (Str)
open TC.Version (Git Run World Info)

/-- Some text without white space. -/
def Word (s : Str) : Prop := s ≠ [] ∧ ∀ c ∈ s, ¬ WhiteSpace c

/-- A hexadecimal number in small letters. -/
def Hex (s : Str) : Prop := s ≠ [] ∧ ∀ c ∈ s, c ∈ "0123456789abcdef".toList

/-- The state of a git checkout: the nearest tag, if any, and the number of commits since (of all commits, if
there is no tag); the abbreviated and the full name of the commit; whether there are uncommitted changes;
the commit's date. -/
structure Checkout where
  tag : Option Str
  distance : Nat
  hex : Str
  full : Str
  dirty : Bool
  day : Str
  time : Str
  zone : Str

/-- The names and dates are as git makes them. -/
structure Checkout.Valid (c : Checkout) : Prop where
  tag : ∀ t, c.tag = some t → Word t
  hex : Hex c.hex
  full : Hex c.full
  day : Word c.day
  time : Word c.time
  zone : Word c.zone

/-- A number in decimal digits. -/
def inDecimal (n : Nat) : Str := (toString n).toList

/-- What `git describe --tags --always --dirty --long` prints. -/
def Checkout.described (c : Checkout) : Str :=
  (match c.tag with
   | some t => t ++ "-".toList ++ inDecimal c.distance ++ "-g".toList ++ c.hex
   | none => c.hex) ++ (if c.dirty then "-dirty".toList else [])

/-- git answers for this checkout. -/
structure Answers (git : Git) (c : Checkout) : Prop where
  gitDir : ∃ out, git.gitDir = .exits 0 out
  describe : git.describe = .exits 0 (c.described ++ ['\n'])
  head : git.head = .exits 0 (c.full ++ ['\n'])
  count : c.tag = none → git.count = .exits 0 (inDecimal c.distance ++ ['\n'])
  date : git.date = .exits 0 (c.day ++ [' '] ++ c.time ++ [' '] ++ c.zone ++ ['\n'])

/-- The name of the commit in the version: without a tag, the first seven characters of its full name. -/
def Checkout.shortName (c : Checkout) : Str :=
  match c.tag with
  | some _ => c.hex
  | none => c.full.take 7

/-- What follows the tag: distance, commit, and whether there are changes. -/
def Checkout.place (c : Checkout) : Str :=
  inDecimal c.distance ++ ".g".toList ++ c.shortName ++ (if c.dirty then ".dirty".toList else [])

/-- The version of a checkout: its tag if it is at the tag and unchanged; else the tag and where it is, after
a plus sign (a dot, if the tag has a plus sign); without a tag, `0+untagged` and where it is. -/
inductive VersionOf (c : Checkout) : Str → Prop
  | release {t} : c.tag = some t → c.distance = 0 → c.dirty = false → VersionOf c t
  | between {t} : c.tag = some t → c.distance ≠ 0 ∨ c.dirty = true → '+' ∉ t →
      VersionOf c (t ++ "+".toList ++ c.place)
  | betweenLocal {t} : c.tag = some t → c.distance ≠ 0 ∨ c.dirty = true → '+' ∈ t →
      VersionOf c (t ++ ".".toList ++ c.place)
  | untagged : c.tag = none → VersionOf c ("0+untagged.".toList ++ c.place)

/-- A mark for uncommitted changes, if there are any. -/
def Checkout.mark (c : Checkout) (m : String) : Str := if c.dirty then m.toList else []

/-- The version in the other styles. -/
inductive StyledVersion (c : Checkout) : String → Str → Prop
  | preRelease {t} : c.tag = some t → c.distance = 0 → StyledVersion c "pep440-pre" t
  | pre {t} : c.tag = some t → c.distance ≠ 0 →
      StyledVersion c "pep440-pre" (t ++ ".post.dev".toList ++ inDecimal c.distance)
  | preNoTag : c.tag = none → StyledVersion c "pep440-pre" ("0.post.dev".toList ++ inDecimal c.distance)
  | postRelease {t} : c.tag = some t → c.distance = 0 → c.dirty = false → StyledVersion c "pep440-post" t
  | post {t} : c.tag = some t → c.distance ≠ 0 ∨ c.dirty = true → '+' ∉ t → StyledVersion c "pep440-post"
      (t ++ ".post".toList ++ inDecimal c.distance ++ c.mark ".dev0" ++ "+g".toList ++ c.shortName)
  | postLocal {t} : c.tag = some t → c.distance ≠ 0 ∨ c.dirty = true → '+' ∈ t → StyledVersion c "pep440-post"
      (t ++ ".post".toList ++ inDecimal c.distance ++ c.mark ".dev0" ++ ".g".toList ++ c.shortName)
  | postNoTag : c.tag = none → StyledVersion c "pep440-post"
      ("0.post".toList ++ inDecimal c.distance ++ c.mark ".dev0" ++ "+g".toList ++ c.shortName)
  | oldRelease {t} : c.tag = some t → c.distance = 0 → c.dirty = false → StyledVersion c "pep440-old" t
  | old {t} : c.tag = some t → c.distance ≠ 0 ∨ c.dirty = true → StyledVersion c "pep440-old"
      (t ++ ".post".toList ++ inDecimal c.distance ++ c.mark ".dev0")
  | oldNoTag : c.tag = none → StyledVersion c "pep440-old"
      ("0.post".toList ++ inDecimal c.distance ++ c.mark ".dev0")
  | describeRelease {t} : c.tag = some t → c.distance = 0 → StyledVersion c "git-describe" (t ++ c.mark "-dirty")
  | describe {t} : c.tag = some t → c.distance ≠ 0 → StyledVersion c "git-describe" c.described
  | describeNoTag : c.tag = none → StyledVersion c "git-describe" (c.full.take 7 ++ c.mark "-dirty")

/-- The reference names as `git archive` writes them: ` (HEAD -> master, tag: 1.0)`. -/
def refnames (refs : List Str) : Str := " (".toList ++ ", ".toList.intercalate refs ++ ")".toList

/-- A reference name has no white space at its ends, no comma and no parenthesis. -/
structure RefName (r : Str) : Prop where
  first : ∃ c, r.head? = some c ∧ ¬ WhiteSpace c
  last : ∃ c, r.getLast? = some c ∧ ¬ WhiteSpace c
  chars : ∀ c ∈ r, c ≠ ',' ∧ c ≠ '(' ∧ c ≠ ')'

/-- The tags among the references: those marked as tags; if none is, those with a digit. -/
def IsTag (isDigit : Char → Prop) (refs : List Str) (t : Str) : Prop :=
  "tag: ".toList ++ t ∈ refs ∨
    (∀ u, "tag: ".toList ++ u ∉ refs) ∧ t ∈ refs ∧ ∃ c ∈ t, isDigit c

/-- The first in alphabetical order (by code point). -/
def Least (P : Str → Prop) (t : Str) : Prop := P t ∧ ∀ u, P u → ¬ u < t

/-- A name in a path. -/
def FileName (s : Str) : Prop := s ≠ [] ∧ '/' ∉ s

/-- The absolute path of a file in these directories, the innermost first. -/
def pathOf : List Str → Str
  | [] => "/".toList
  | [name] => "/".toList ++ name
  | name :: dir :: dirs => pathOf (dir :: dirs) ++ "/".toList ++ name

/-- The first of a list that is the prefix followed by `v`, none before it beginning with the prefix. -/
def FirstWith (pre : Str) (names : List Str) (v : Str) : Prop :=
  ∃ before after, names = before ++ (pre ++ v) :: after ∧ ∀ n ∈ before, ∀ u, n ≠ pre ++ u

/-- A command that cannot be run, or fails. -/
def Failed (r : Run) : Prop := r = .fails ∨ ∃ code out, r = .exits code out ∧ code ≠ 0

/-- git does not know the directory, or cannot describe or name its commit. -/
def NoGit (git : Git) : Prop := Failed git.gitDir ∨ Failed git.describe ∨ Failed git.head

end TC.Spec
