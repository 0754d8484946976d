import Verif.Model.VersioneerSetup

/-!
# The check of `setup.py` after `python versioneer.py setup`

`versioneer.py` lines 1779-1822.
-/

namespace TC.Versioneer
open TC.Tcal (Str)

/-- The local variables of `scan_setup_py`, `versioneer.py` lines 1781-1782: which of the three names are in the set
`found`, and `setters`. -/
structure Scan where
  imports : Bool := false
  cmdclass : Bool := false
  getVersion : Bool := false
  setters : Bool := false

/-- The body of the loop over the lines, `versioneer.py` lines 1786-1795. -/
def scanLine (s : Scan) (line : Str) : Scan :=
  let s := if hasSub "import versioneer".toList line then { s with imports := true } else s
  let s := if hasSub "versioneer.get_cmdclass()".toList line then { s with cmdclass := true } else s
  let s := if hasSub "versioneer.get_version()".toList line then { s with getVersion := true } else s
  let s := if hasSub "versioneer.VCS".toList line then { s with setters := true } else s
  if hasSub "versioneer.versionfile_source".toList line then { s with setters := true } else s

/-- `len(found)`, `versioneer.py` line 1796. -/
def Scan.size (s : Scan) : Nat := s.imports.toNat + s.cmdclass.toNat + s.getVersion.toNat

/-- `scan_setup_py` for the text of `setup.py`: the number of errors, `versioneer.py` lines 1779-1813.  Simplified: the
lines are without the line feeds at their ends, which none of the texts looked for has; what is printed is left out. -/
def scanSetupPy (text : Str) : Nat :=
  let s := (linesOf text).foldl scanLine {}
  let errors := 0
  let errors := if s.size ≠ 3 then errors + 1 else errors
  if s.setters then errors + 1 else errors

/-- `python versioneer.py setup`, `versioneer.py` lines 1816-1822: the files afterwards and the exit status.
Simplified as `doSetup`, which returns 0 then. -/
def setupMain (c : Section) (t : Project) (setupPy : Str) : Project × Nat :=
  let t := doSetup c t
  let errors := 0 + scanSetupPy setupPy
  (t, if errors ≠ 0 then 1 else 0)

end TC.Versioneer
