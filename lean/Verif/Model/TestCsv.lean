import Verif.Model.Tcal
import Verif.Model.Defaults

/-!
# Model of `etc/make_trading_calendar_test_csv.py`

The script that writes the CSV files of the exchange calendar tests.  The part of pandas that it uses,
`DataFrame.to_csv`, is modelled as in pandas 0.22 (`CSVFormatter`, `DatetimeBlock.to_native_types`,
`tslib.format_array_from_datetime`), the paths as in CPython's `posixpath`.
-/

namespace TC.TestCsv
open Tcal

/-- `str.upper()` for an ASCII letter, used in `etc/make_trading_calendar_test_csv.py` line 17. -/
def upperAscii (c : Char) : Char := if 97 ≤ c.toNat ∧ c.toNat ≤ 122 then Char.ofNat (c.toNat - 32) else c

/-- `str.lower()` for an ASCII letter, used in `etc/make_trading_calendar_test_csv.py` line 29. -/
def lowerAscii (c : Char) : Char := if 65 ≤ c.toNat ∧ c.toNat ≤ 90 then Char.ofNat (c.toNat + 32) else c

/-- `str.upper` and `str.lower`, `etc/make_trading_calendar_test_csv.py` lines 17 and 29.  What they do with
strings that are not ASCII is left open. -/
structure CaseMaps where
  upper : Str → Str
  lower : Str → Str
  upper_ascii : ∀ s, (∀ c ∈ s, c.toNat < 128) → upper s = s.map upperAscii
  lower_ascii : ∀ s, (∀ c ∈ s, c.toNat < 128) → lower s = s.map lowerAscii

/-! ### Dates and times -/

/-- `'%.wd' % n`: at least `w` digits; in `to_csv`, `etc/make_trading_calendar_test_csv.py` line 34. -/
def zeroPad (w : Nat) (n : Int) : Str := List.replicate (w - (decimal n).length) '0' ++ decimal n

/-- `str(date)` of the day, for the index of dates made in `etc/make_trading_calendar_test_csv.py` line 24.
The years of timestamps have four digits, so `'%d'` and `'%.4d'` are the same for them. -/
def dateText (d : Int) : Str :=
  zeroPad 4 (yearOf d) ++ '-' :: (zeroPad 2 (monthOf d) ++ '-' :: zeroPad 2 (dayOfMonth d))

/-- How the timestamps of a block of the table are written: only their dates (`none`), or date and time
with the given number of digits below the second (`etc/make_trading_calendar_test_csv.py` line 34). -/
abbrev Form := Option Nat

/-- The form for a block: `_get_format_datetime64_from_values` (only dates if there are only midnights),
then the resolution chosen by `format_array_from_datetime`; in `to_csv`,
`etc/make_trading_calendar_test_csv.py` line 34. -/
def formOf (vs : List Int) : Form :=
  if vs.all (fun v => v % DAY == 0) then none
  else if vs.any (fun v => v % 1000 != 0) then some 9
  else if vs.any (fun v => v / 1000 % 1000 != 0) then some 6
  else if vs.any (fun v => v / 1000000 % 1000 != 0) then some 3
  else some 0

/-- Digits below the second: `'.%.9d'`, `'.%.6d'` or `'.%.3d'`; in `to_csv`,
`etc/make_trading_calendar_test_csv.py` line 34. -/
def fraction (k : Nat) (v : Int) : Str :=
  if k = 0 then [] else '.' :: zeroPad k (v % 1000000000 / 10 ^ (9 - k))

/-- The text of a timestamp, `format_array_from_datetime`; in `to_csv`, `etc/make_trading_calendar_test_csv.py`
line 34. -/
def stampText (form : Form) (v : Int) : Str :=
  match form with
  | none => dateText (v / DAY)
  | some k => dateText (v / DAY) ++ ' ' :: (zeroPad 2 (v % DAY / 3600000000000) ++
      ':' :: (zeroPad 2 (v % 3600000000000 / 60000000000) ++
      ':' :: (zeroPad 2 (v % 60000000000 / 1000000000) ++ fraction k v)))

/-! ### The table -/

/-- A row of the table: label, open and close, `etc/make_trading_calendar_test_csv.py` lines 19-23. -/
abbrev Row := Int × Int × Int

/-- The data frame of `etc/make_trading_calendar_test_csv.py` lines 19-24. -/
def rows (c : Cal) : List Row := c.sessions.zip (c.opens.zip c.closes)

/-- A line of the file, `etc/make_trading_calendar_test_csv.py` line 34.  Nothing in it needs quotes. -/
def lineText (form : Form) (r : Row) : Str :=
  dateText (r.1 / DAY) ++ ',' :: (stampText form r.2.1 ++ ',' :: (stampText form r.2.2 ++ ['\n']))

/-- `CSVFormatter._save_chunk`: the rows are converted together; in `to_csv`,
`etc/make_trading_calendar_test_csv.py` line 34. -/
def chunkText (rs : List Row) : Str :=
  (rs.map (lineText (formOf (rs.flatMap fun r => [r.2.1, r.2.2])))).flatten

/-- `CSVFormatter.chunksize` for two columns: `100000 // 2`; in `to_csv`,
`etc/make_trading_calendar_test_csv.py` line 34. -/
def chunkSize : Nat := 50000

/-- `CSVFormatter._save`: chunk after chunk; in `to_csv`, `etc/make_trading_calendar_test_csv.py` line 34. -/
def chunked (rs : List Row) : List (List Row) :=
  (List.range (rs.length / chunkSize + 1)).map fun i => (rs.drop (i * chunkSize)).take chunkSize

/-- `df.to_csv(destination)`, `etc/make_trading_calendar_test_csv.py` line 34.  Simplified: lines end in `'\n'`, as on Linux. -/
def csvText (c : Cal) : Str :=
  ",market_open,market_close\n".toList ++ ((chunked (rows c)).map chunkText).flatten

/-! ### The destination -/

/-- `path.split('/')`, in `normpath`, `etc/make_trading_calendar_test_csv.py` line 26. -/
def splitSlash : Str → List Str
  | [] => [[]]
  | c :: s =>
    if c = '/' then [] :: splitSlash s
    else match splitSlash s with
      | [] => [[c]]
      | p :: ps => (c :: p) :: ps

/-- `'/'.join(parts)`, in `normpath`, `etc/make_trading_calendar_test_csv.py` line 26. -/
def joinSlash : List Str → Str
  | [] => []
  | [p] => p
  | p :: ps => p ++ '/' :: joinSlash ps

/-- The loop of `posixpath.normpath` over the parts of the path, `etc/make_trading_calendar_test_csv.py`
line 26. -/
def normStep (slashes : Nat) (acc : List Str) (comp : Str) : List Str :=
  if comp = [] ∨ comp = ['.'] then acc
  else if comp ≠ ['.', '.'] ∨ (slashes = 0 ∧ acc = []) ∨ acc.getLast? = some ['.', '.'] then acc ++ [comp]
  else acc.dropLast

/-- `initial_slashes` of `posixpath.normpath`, `etc/make_trading_calendar_test_csv.py` line 26. -/
def initialSlashes : Str → Nat
  | '/' :: '/' :: '/' :: _ => 1
  | '/' :: '/' :: _ => 2
  | '/' :: _ => 1
  | _ => 0

/-- `posixpath.normpath`, `etc/make_trading_calendar_test_csv.py` line 26. -/
def normpath (p : Str) : Str :=
  let q := List.replicate (initialSlashes p) '/' ++
    joinSlash ((splitSlash p).foldl (normStep (initialSlashes p)) [])
  if q = [] then ['.'] else q

/-- `posixpath.join(a, b)`, `etc/make_trading_calendar_test_csv.py` line 27. -/
def joinPath (a b : Str) : Str :=
  if b.head? = some '/' then b
  else if a = [] ∨ a.getLast? = some '/' then a ++ b
  else a ++ '/' :: b

/-- `etc/make_trading_calendar_test_csv.py` lines 26-31; `etc` is `abspath(dirname(__file__))`. -/
def destination (w : CaseMaps) (etc name : Str) : Str :=
  normpath (joinPath etc ("../tests/resources/".toList ++ (w.lower name ++ ".csv".toList)))

/-! ### The script -/

/-- What the script does: a line on the standard output, then a file,
`etc/make_trading_calendar_test_csv.py` lines 32-34. -/
structure Output where
  printed : Str
  path : Str
  text : Str

/-- The script, `etc/make_trading_calendar_test_csv.py` lines 16-34, run with the given arguments in a process with the given registry.
Simplified: writing the file succeeds (its directory has to exist). -/
def script (w : CaseMaps) (env : FactoryEnv) (content : CalObj → Built) (reg : Registry) (etc : Str)
    (argv : List Str) : Py Output :=
  match argv[1]? with
  | none => .error .indexError
  | some name =>
    match (reg.getCalendar env (String.ofList (w.upper name))).2 with
    | .error e => .error e
    | .ok c =>
      let path := destination w etc name
      .ok ⟨"Writing test CSV file to ".toList ++ (path ++ ['\n']), path, csvText (content c).cal⟩

end TC.TestCsv
