import Verif.Spec.Civil
import Verif.Model.TerrestrialTime

/-! # Specification vocabulary for Terrestrial Time and smoothing -/

namespace TC.Spec.Lunisolar

/-- `j` is the Julian date of the time `ts`, in ten-thousandths of a second: noon of 2000-01-01 is 2451545 days. -/
def JulianDate (ts j : Int) : Prop :=
  ∃ d, DayNumber ⟨2000, 1, 1⟩ d ∧ j = 2451545 * (24 * 60 * 60 * 10000) + (ts - (d * 24 + 12) * 60 * 60) * 10000

/-- `c` is the correction of the last row of the table whose day has begun at `ts`. -/
def InForce (table : List (Int × Int)) (ts c : Int) : Prop :=
  ∃ before d after, table = before ++ (d, c) :: after ∧ d * 24 * 60 * 60 ≤ ts ∧ ∀ e ∈ after, ts < e.1 * 24 * 60 * 60

/-- `c` is the correction of the first row of the table whose day has not begun at `ts`, or of the last row if
there is none. -/
def NextInForce (table : List (Int × Int)) (ts c : Int) : Prop :=
  ∃ before d after, table = before ++ (d, c) :: after ∧ (∀ e ∈ before, e.1 * 24 * 60 * 60 ≤ ts) ∧
    (ts < d * 24 * 60 * 60 ∨ after = [])

/-- The sum of `w` elements from place `k` on. -/
def windowSum (arr : List Int) (w k : Nat) : Int := ((arr.drop k).take w).sum

end TC.Spec.Lunisolar
