import Verif.Model.VersioneerSetup

/-!
# Reading `setup.cfg`, and `do_setup` without a complete section in it

`versioneer.py` lines 335-361, 1671-1687 and 1697-1719.  The parser is the `configparser` of Python 3 as
`get_config_from_root` calls it, with its defaults: `#` and `;` begin comment lines, `=` and `:` end the name of an option,
indented lines continue a value, and a section or option may not come twice.
-/

namespace TC.Versioneer
open TC.Tcal (Str isSpace)

/-- What reading the section raises (`versioneer.py` lines 336-339 and 1702-1703): `environment` is `EnvironmentError`;
`parsing` stands for the other errors of `configparser` on reading a file, `interpolation` for those on a value with a per
cent sign. -/
inductive CfgErr where
  | environment
  | noSection
  | noOption
  | parsing
  | interpolation
  | typeError
  | keyError
  deriving DecidableEq, Repr

/-- The state of the parser in `parser.readfp(f)` (`versioneer.py` line 343): the names of the sections read, the options
with the lines of their values, latest first, the current section, whether there is a value to continue, the indentation
it began with, and whether a line was bad. -/
structure CfgState where
  sections : List Str := []
  options : List ((Str × Str) × List Str) := []
  current : Option Str := none
  opened : Bool := false
  indent : Nat := 0
  bad : Bool := false

/-- `[name]` at the start of a line without its white space (`SECTCRE` of the parser, `versioneer.py` line 343). -/
def sectionName : Str → Option Str
  | '[' :: s =>
    let name := s.takeWhile (· ≠ ']')
    if name = [] ∨ name = s then none else some name
  | _ => none

/-- Name and value of an option (`OPTCRE` of the parser and `optionxform`, `versioneer.py` line 343).  Simplified: only the
letters A to Z are made small. -/
def optionLine (s : Str) : Option (Str × Str) :=
  let name := s.takeWhile fun c => c ≠ '=' && c ≠ ':'
  match s.drop name.length with
  | [] => none
  | _ :: value => some ((Tcal.rstrip name).map Char.toLower, Version.strip value)

/-- One more line for the last value, if there is one to continue (`versioneer.py` line 343). -/
def CfgState.continued (σ : CfgState) (line : Str) : CfgState :=
  match σ.opened, σ.options with
  | true, (key, value) :: rest => { σ with options := (key, value ++ [line]) :: rest }
  | _, _ => σ

/-- What the parser does with a line (`versioneer.py` line 343). -/
def cfgLine (σ : CfgState) (line : Str) : Except CfgErr CfgState :=
  let value := Version.strip line
  match value with
  | [] => .ok (σ.continued [])
  | c :: _ =>
    if c = '#' ∨ c = ';' then .ok σ
    else
      let indent := (line.takeWhile isSpace).length
      if σ.opened = true ∧ σ.indent < indent then .ok (σ.continued value)
      else
        let σ := { σ with indent := indent }
        match sectionName value with
        | some name =>
          if name ∈ σ.sections then .error .parsing
          else if name = "DEFAULT".toList then .ok { σ with current := some name, opened := false }
          else .ok { σ with sections := name :: σ.sections, current := some name, opened := false }
        | none =>
          match σ.current, optionLine value with
          | none, _ => .error .parsing
          | some _, none => .ok { σ with bad := true }
          | some sect, some (key, val) =>
            if (sect, key) ∈ σ.options.map (·.1) then .error .parsing
            else .ok { σ with options := ((sect, key), [val]) :: σ.options, opened := key ≠ [], bad := σ.bad || key = [] }

/-- The lines of a file, one after the other (`versioneer.py` line 343). -/
def cfgLines : List Str → CfgState → Except CfgErr CfgState
  | [], σ => .ok σ
  | l :: ls, σ =>
    match cfgLine σ l with
    | .error e => .error e
    | .ok σ => cfgLines ls σ

/-- `parser.readfp(f)`, `versioneer.py` lines 341-343.  An empty line after the last line feed is without effect: values
lose the white space at their ends. -/
def parseCfg (text : Str) : Except CfgErr CfgState :=
  match cfgLines (linesOf text) {} with
  | .error e => .error e
  | .ok σ => if σ.bad then .error .parsing else .ok σ

/-- The lines of a value joined by line feeds, without the white space at the end (`versioneer.py` line 343). -/
def joinValue (lines : List Str) : Str := Tcal.rstrip (List.intercalate ['\n'] lines)

/-- The value of an option of the section `versioneer`, or else of `DEFAULT` (`parser.has_option` and `parser.get`,
`versioneer.py` lines 344 and 347-348). -/
def CfgState.find? (σ : CfgState) (key : String) : Option Str :=
  match σ.options.lookup ("versioneer".toList, key.toList) with
  | some v => some (joinValue v)
  | none =>
    match σ.options.lookup ("DEFAULT".toList, key.toList) with
    | some v => some (joinValue v)
    | none => none

/-- `parser.get` replaces what follows a per cent sign (`versioneer.py` lines 344 and 348).  Simplified: any such value is an
error. -/
def interpolated (v : Str) : Except CfgErr Str := if '%' ∈ v then .error .interpolation else .ok v

/-- `get(parser, name)`, `versioneer.py` lines 346-349. -/
def CfgState.get (σ : CfgState) (key : String) : Except CfgErr (Option Str) :=
  match σ.find? key with
  | none => .ok none
  | some v => (interpolated v).map some

/-- `VersioneerConfig`, `versioneer.py` lines 350-360. -/
structure VConfig where
  vcs : Str
  style : Str
  source : Option Str
  build : Option Str
  tagPrefix : Option Str
  parentdirPrefix : Option Str
  verbose : Option Str
  deriving DecidableEq

/-- `get_config_from_root`, `versioneer.py` lines 335-361; `none` is a file that cannot be opened. -/
def readConfig : Option Str → Except CfgErr VConfig
  | none => .error .environment
  | some text => do
    let σ ← parseCfg text
    if "versioneer".toList ∉ σ.sections then throw .noSection
    let vcs ← match σ.find? "vcs" with
      | none => .error .noOption
      | some v => interpolated v
    let style ← σ.get "style"
    let source ← σ.get "versionfile_source"
    let build ← σ.get "versionfile_build"
    let tag ← σ.get "tag_prefix"
    let tag := if tag = some "''".toList ∨ tag = some "\"\"".toList then some [] else tag
    let parentdir ← σ.get "parentdir_prefix"
    let verbose ← σ.get "verbose"
    pure { vcs := vcs, style := style.getD [], source := source, build := build, tagPrefix := tag,
           parentdirPrefix := parentdir, verbose := verbose }

/-- `SAMPLE_CONFIG`, `versioneer.py` lines 1671-1684. -/
def sampleConfig : Str :=
  "\n# See the docstring in versioneer.py for instructions. Note that you must\n".toList ++
  "# re-run 'versioneer.py setup' after changing this section, and commit the\n".toList ++
  "# resulting files.\n\n[versioneer]\n".toList ++ "#VCS = git\n#style = pep440\n#versionfile_source =\n".toList ++
  "#versionfile_build =\n#tag_prefix =\n#parentdir_prefix =\n\n".toList

/-- The files of the project together with `setup.cfg` (`versioneer.py` lines 1699-1719). -/
structure Root where
  setupCfg : Option Str
  project : Project

/-- `do_setup`, `versioneer.py` lines 1697-1776: the files afterwards, and the status or what is raised.  `long` is the
template filled in with the settings (lines 1714-1719).  The version file is opened for writing, and so emptied, before the
template for `cfg.VCS` is looked up (lines 1712-1713); `git` is the only one.  Simplified: the version file, `__init__.py`
beside it and the rest can be written, and are the same files in all runs; what is printed is left out. -/
def doSetupRoot (long : VConfig → Str) (r : Root) : Root × Except CfgErr Nat :=
  match readConfig r.setupCfg with
  | .error .environment | .error .noSection => ({ r with setupCfg := some (r.setupCfg.getD [] ++ sampleConfig) }, .ok 1)
  | .error .noOption => (r, .ok 1)
  | .error e => (r, .error e)
  | .ok c =>
    match c.source with
    | none => (r, .error .typeError)
    | some source =>
      if c.vcs = "git".toList then ({ r with project := doSetup ⟨source, long c⟩ r.project }, .ok 0)
      else ({ r with project := { r.project with versionFile := some [] } }, .error .keyError)

end TC.Versioneer
