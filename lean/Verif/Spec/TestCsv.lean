import Verif.Spec.Civil
import Verif.Spec.Calendar
import Verif.Model.TestCsv

/-! # Specification vocabulary for the CSV files of the exchange calendar tests -/

namespace TC.Spec
open Tcal

/-- The digits with their values. -/
def digitValue (c : Char) : Option Nat :=
  ['0', '1', '2', '3', '4', '5', '6', '7', '8', '9'].findIdx? (· == c)

/-- The number that the digits denote. -/
def digitsValue (s : Str) : Nat := s.foldl (fun n c => 10 * n + (digitValue c).getD 0) 0

/-- `s` is the number `n` in decimal digits, filled up with zeros to `w` of them. -/
def Padded (w : Nat) (n : Int) (s : Str) : Prop :=
  (∀ c ∈ s, (digitValue c).isSome) ∧ (digitsValue s : Int) = n ∧
    (s.length = w ∨ w < s.length ∧ s.head? ≠ some '0')

/-- `s` is the date of day `d`, as `2019-10-16`. -/
def DateText (d : Int) (s : Str) : Prop :=
  ∃ date y m dd, DayNumber date d ∧ Padded 4 date.year y ∧ Padded 2 date.month m ∧ Padded 2 date.day dd ∧
    s = y ++ "-".toList ++ m ++ "-".toList ++ dd

/-- `s` shows the number `n` of nanoseconds below a second with `k` digits behind a point. -/
def FractionText (k : Nat) (n : Int) (s : Str) : Prop :=
  (k = 0 ∧ s = [] ∧ n = 0) ∨
    ∃ f, 0 < k ∧ s = '.' :: f ∧ f.length = k ∧ (∀ c ∈ f, (digitValue c).isSome) ∧
      (digitsValue f : Int) * 10 ^ (9 - k) = n

/-- `s` is the time of day at instant `v`, as `14:31:00`, with `k` digits below the second: the hours,
minutes, seconds and nanoseconds since the last midnight. -/
def TimeText (k : Nat) (v : Int) (s : Str) : Prop :=
  ∃ h m sec n hs ms ss f, v % DAY = ((h * 60 + m) * 60 + sec) * 1000000000 + n ∧
    0 ≤ m ∧ m < 60 ∧ 0 ≤ sec ∧ sec < 60 ∧ 0 ≤ n ∧ n < 1000000000 ∧
    Padded 2 h hs ∧ Padded 2 m ms ∧ Padded 2 sec ss ∧ FractionText k n f ∧
    s = hs ++ ":".toList ++ ms ++ ":".toList ++ ss ++ f

/-- `s` is the instant `v` in the given form: a date, for a midnight, or date and time. -/
def StampText : Option Nat → Int → Str → Prop
  | none, v, s => ∃ d, v = d * DAY ∧ DateText d s
  | some k, v, s => ∃ d a b, d * DAY ≤ v ∧ v < (d + 1) * DAY ∧ DateText d a ∧ TimeText k v b ∧
      s = a ++ " ".toList ++ b

/-- The text shows the sessions, one on each line: its label, a date, its open and its close.  The form of
the times is one of those in `P`, the same for both. -/
inductive ShowsRows (P : Option Nat → Prop) : List Session → Str → Prop
  | nil : ShowsRows P [] []
  | cons {s ss form d a b c text} : P form → d * DAY ≤ s.label → s.label < (d + 1) * DAY → DateText d a →
      StampText form s.open b → StampText form s.close c → ShowsRows P ss text →
      ShowsRows P (s :: ss) (a ++ ",".toList ++ b ++ ",".toList ++ c ++ "\n".toList ++ text)

/-- The text of a CSV file with the sessions. -/
def ShowsFile (P : Option Nat → Prop) (ss : List Session) (text : Str) : Prop :=
  ∃ body, ShowsRows P ss body ∧ text = ",market_open,market_close\n".toList ++ body

/-- The instant is in the year 1000 or later. -/
def FourDigits (v : Int) : Prop := ∃ d, DayNumber ⟨1000, 1, 1⟩ d ∧ d * DAY ≤ v

/-- The label and the times of the session are in the year 1000 or later (pandas knows no instants before
1677 or after 2262). -/
def Session.FourDigits (s : Session) : Prop :=
  TC.Spec.FourDigits s.label ∧ TC.Spec.FourDigits s.open ∧ TC.Spec.FourDigits s.close

/-- `a` and `b` are the same ASCII character, or the small and the capital form of the same letter. -/
def SameLetter (a b : Char) : Prop :=
  a.toNat < 128 ∧ b.toNat < 128 ∧ (a = b ∨
    ∃ k : Nat, k < 26 ∧ ((a.toNat = 97 + k ∧ b.toNat = 65 + k) ∨ (a.toNat = 65 + k ∧ b.toNat = 97 + k)))

/-- `s` is `t` up to capitals. -/
def SameLetters : Str → Str → Prop
  | [], [] => True
  | a :: s, b :: t => SameLetter a b ∧ SameLetters s t
  | _, _ => False

/-- Without capital letters. -/
def NoCapitals (s : Str) : Prop := ∀ c ∈ s, ¬ (65 ≤ c.toNat ∧ c.toNat ≤ 90)

/-- Without small letters. -/
def NoSmall (s : Str) : Prop := ∀ c ∈ s, ¬ (97 ≤ c.toNat ∧ c.toNat ≤ 122)

/-- A part of a path that names a file or directory: not empty, without slash, neither `.` nor `..`. -/
def ProperPart (p : Str) : Prop := p ≠ [] ∧ '/' ∉ p ∧ p ≠ ['.'] ∧ p ≠ ['.', '.']

/-- The absolute path with the given parts. -/
def absolute (parts : List Str) : Str := (parts.map fun p => '/' :: p).flatten

end TC.Spec
