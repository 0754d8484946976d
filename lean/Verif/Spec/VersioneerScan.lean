import Verif.Model.VersioneerScan

/-! # What `setup.py` has to look like for versioneer -/

namespace TC.Versioneer
open TC.Tcal (Str)

/-- The text `p` occurs in `t`, anywhere. -/
def Occurs (p : String) (t : Str) : Prop := ∃ a b, t = a ++ p.toList ++ b

/-- `setup.py` uses versioneer. -/
def Uses (t : Str) : Prop :=
  Occurs "import versioneer" t ∧ Occurs "versioneer.get_cmdclass()" t ∧ Occurs "versioneer.get_version()" t

/-- `setup.py` has settings of an old version of versioneer. -/
def Outdated (t : Str) : Prop := Occurs "versioneer.VCS" t ∨ Occurs "versioneer.versionfile_source" t

end TC.Versioneer
