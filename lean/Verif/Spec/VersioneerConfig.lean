import Verif.Model.VersioneerConfig
import Verif.Spec.VersioneerScan

/-! # A section of `setup.cfg` and its values -/

namespace TC.Versioneer
open TC.Tcal (Str isSpace)

/-- A value that fits into a line of `setup.cfg`: one line, no white space at its ends, no per cent sign. -/
def Plain (v : Str) : Prop :=
  '\n' ∉ v ∧ '%' ∉ v ∧ (∀ c, v.head? = some c → isSpace c = false) ∧ ∀ c, v.getLast? = some c → isSpace c = false

/-- The section as the documentation of versioneer lays it out. -/
def sectionText (vcs style source build tag parentdir : Str) : Str :=
  "[versioneer]\nVCS = ".toList ++ vcs ++ "\nstyle = ".toList ++ style ++ "\nversionfile_source = ".toList ++ source ++
  "\nversionfile_build = ".toList ++ build ++ "\ntag_prefix = ".toList ++ tag ++ "\nparentdir_prefix = ".toList ++ parentdir

/-- The prefix of tags that is meant: two quotation marks stand for the empty one. -/
inductive Means : Str → Str → Prop
  | single : Means "''".toList []
  | double : Means "\"\"".toList []
  | plain {v} : v ≠ "''".toList → v ≠ "\"\"".toList → Means v v

end TC.Versioneer
