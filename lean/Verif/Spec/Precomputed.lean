import Verif.Spec.TestCsv
import Verif.Model.Precomputed

/-! # Specification vocabulary for the files with precomputed longitudes -/

namespace TC.Spec.Lunisolar
open Tcal

/-- `s` is the minute `m`, as `2019-10-16T14:31`. -/
def MinuteText (m : Int) (s : Str) : Prop :=
  ∃ d h k a hs ks, m = (d * 24 + h) * 60 + k ∧ 0 ≤ h ∧ h < 24 ∧ 0 ≤ k ∧ k < 60 ∧ DateText d a ∧
    Padded 2 h hs ∧ Padded 2 k ks ∧ s = a ++ "T".toList ++ hs ++ ":".toList ++ ks

/-- `s` names the minute `m`: a date of ten characters, for its midnight, or a date and a time of sixteen, with a `T`
or a space between them. -/
def TimeText (m : Int) (s : Str) : Prop :=
  (s.length = 10 ∧ ∃ d, DateText d s ∧ m = d * 24 * 60) ∨
  (s.length = 16 ∧ ∃ d h k a hs ks c, m = (d * 24 + h) * 60 + k ∧ 0 ≤ h ∧ h < 24 ∧ 0 ≤ k ∧ k < 60 ∧ DateText d a ∧
    Padded 2 h hs ∧ Padded 2 k ks ∧ (c = 'T' ∨ c = ' ') ∧ s = a ++ c :: (hs ++ ':' :: ks))

/-- The minute is in one of the years 0 to 9999. -/
def FourDigitYear (m : Int) : Prop :=
  ∃ a b, DayNumber ⟨0, 1, 1⟩ a ∧ DayNumber ⟨10000, 1, 1⟩ b ∧ a * 24 * 60 ≤ m ∧ m < b * 24 * 60

/-- A run computes at least one minute, and its years have four digits. -/
def ProperRun (start stop : Int) : Prop :=
  start < stop ∧ ∀ m, start ≤ m → m < stop → FourDigitYear m

/-- The minutes from `start` to `stop`, without `stop`, each once and in order. -/
def EachMinute (start stop : Int) (minutes : List Int) : Prop :=
  minutes.Pairwise (· < ·) ∧ ∀ m, m ∈ minutes ↔ start ≤ m ∧ m < stop

/-- Each value is the longitude at the minute of the same place. -/
def BelongTo {α : Type} (el : Int → α) (values : List α) (minutes : List Int) : Prop :=
  values.length ≤ minutes.length ∧
    ∀ (i : Nat) v m, values[i]? = some v → minutes[i]? = some m → v = el m

/-- No file has an underscore in its name. -/
def NoUnderscore {α : Type} (d : List (Str × List α)) : Prop := ∀ e ∈ d, '_' ∉ e.1

/-- Of the minutes before `stop`, those that are closer than the minute before and the minute after, and
close enough. -/
def NewMoons {β : Type} (lt : β → β → Bool) (close : β → Bool) (dist : Int → β) (start stop : Int)
    (moons : List Int) : Prop :=
  moons.Pairwise (· < ·) ∧
    ∀ m, m ∈ moons ↔ start < m ∧ m + 1 < stop ∧ lt (dist m) (dist (m - 1)) = true ∧
      lt (dist m) (dist (m + 1)) = true ∧ close (dist m) = true

end TC.Spec.Lunisolar
