import Verif.Model.Versioneer
import Verif.Spec.Version

/-!
# Specification vocabulary for the version in distributions
-/

namespace TC.Spec
open TC.Tcal (Str)
open TC.Version (Info Keywords)
open TC.Versioneer (Tree setupVersions shortFile)

/-- Text without control characters, quotation marks, backslashes, characters beyond the first 65536, and three
apostrophes in a row. -/
structure Plain (s : Str) : Prop where
  chars : ∀ c ∈ s, 32 ≤ c.toNat ∧ c.toNat < 0x10000 ∧ c ≠ '"' ∧ c ≠ '\\'
  apostrophes : ∀ a b, s ≠ a ++ "'''".toList ++ b

/-- All texts of the dictionary of versions are plain. -/
structure PlainInfo (i : Info) : Prop where
  version : Plain i.version
  full : ∀ s, i.fullRevision = some s → Plain s
  error : ∀ s, i.error = some s → Plain s
  date : ∀ s, i.date = some s → Plain s

/-- A line that assigns to one of the variables for keywords. -/
def Assigns (l : Str) : Prop :=
  ∃ a b, (∀ c ∈ a, WhiteSpace c) ∧ (l = a ++ "git_refnames =".toList ++ b ∨ l = a ++ "git_full =".toList ++ b ∨
    l = a ++ "git_date =".toList ++ b)

/-- A text with these lines. -/
def linesJoined (ls : List Str) : Str := ['\n'].intercalate ls

/-- A `_version.py` as in the repository, with these keywords on lines of their own, and without a `version_json`. -/
structure KeywordFile (k : Keywords) (text : Str) : Prop where
  lines : ∃ before after, text = linesJoined (before ++
      ["    git_refnames = \"".toList ++ k.refnames ++ ['"'], "    git_full = \"".toList ++ k.full ++ ['"'],
       "    git_date = \"".toList ++ k.date ++ ['"']] ++ after) ∧
    ∀ l ∈ before ++ after, '\n' ∉ l ∧ ¬ Assigns l
  refnames : '\n' ∉ k.refnames
  full : '\n' ∉ k.full
  date : '\n' ∉ k.date
  noJson : ∀ a b, text ≠ a ++ "version_json = '''".toList ++ b

/-- The contents of `_version.py` in what is made of a tree in which `setup.py` found the versions `i`: a distribution or
a build of it, or one of the unpacked result, anywhere, and so on. -/
inductive MadeFrom (i : Info) : Str → Prop
  | first : MadeFrom i (shortFile i)
  | again {text : Str} {t : Tree} {j : Info} : MadeFrom i text → t.versionFile = some text → setupVersions t = .ok j →
      MadeFrom i (shortFile j)

end TC.Spec
