import Verif.Spec.TimeZone
import Verif.Model.Zones

/-!
# The months of the Chinese calendar

The rule by which leap months are found, in terms of dates in China.
-/

namespace TC.Spec.Lunisolar

/-- At instant `u` the date in China is day `d`. -/
def DateInChina (u d : Int) : Prop := ∃ w, Reads Zones.asiaShanghai u w ∧ d * DAY ≤ w ∧ w < (d + 1) * DAY

/-- On the date of `a` or a later one, `b` happens. -/
def NotLater (a b : Int) : Prop := ∃ d e, DateInChina a d ∧ DateInChina b e ∧ d ≤ e

/-- Event `e` falls in month `i`: the last month that begins on the date of `e` or earlier. -/
def InMonth (newMoons : List Int) (e : Int) (i : Nat) : Prop :=
  (∃ m, newMoons[i]? = some m ∧ NotLater m e) ∧
    ∀ j m, i < j → newMoons[j]? = some m → ¬ NotLater m e

/-- A solstice falls in month `i`: a sui begins. -/
def SuiMonth (newMoons solstices : List Int) (i : Nat) : Prop := ∃ e ∈ solstices, InMonth newMoons e i

/-- A zhongqi falls in month `i`. -/
def HasZhongqi (newMoons zhongqi : List Int) (i : Nat) : Prop := ∃ e ∈ zhongqi, InMonth newMoons e i

/-- Month `i` is in a sui of twelve months. -/
def InSuiOfTwelve (newMoons solstices : List Int) (i : Nat) : Prop :=
  ∃ a, a < i ∧ i < a + 12 ∧ SuiMonth newMoons solstices a ∧ SuiMonth newMoons solstices (a + 12) ∧
    ∀ k, a < k → k < a + 12 → ¬ SuiMonth newMoons solstices k

/-- Month `i` is a leap month: the first month without zhongqi since the last solstice, and not in a sui of
twelve months. -/
def LeapMonth (newMoons solstices zhongqi : List Int) (i : Nat) : Prop :=
  i < newMoons.length ∧ ¬ HasZhongqi newMoons zhongqi i ∧ ¬ InSuiOfTwelve newMoons solstices i ∧
    ∀ k, k < i → ¬ HasZhongqi newMoons zhongqi k → ∃ s, k < s ∧ s ≤ i ∧ SuiMonth newMoons solstices s

/-- Usable data: new moons in order and on different dates, solstices in order and in different months, each
before the last month, no event before the first month, and a zhongqi in every month with a solstice. -/
structure Usable (newMoons solstices zhongqi : List Int) : Prop where
  moons : newMoons.Pairwise (fun a b => a < b ∧ ¬ NotLater b a)
  inOrder : solstices.Pairwise (fun a b => ∀ i j, InMonth newMoons a i → InMonth newMoons b j → i < j)
  nonempty : solstices ≠ []
  followed : ∀ e ∈ solstices, ∃ m ∈ newMoons, ¬ NotLater m e
  covered : ∀ e, e ∈ solstices ∨ e ∈ zhongqi → ∃ m, newMoons.head? = some m ∧ NotLater m e
  sui : ∀ i, SuiMonth newMoons solstices i → HasZhongqi newMoons zhongqi i

/-- Month `i` has a number: it is in the data and no leap month. -/
def Numbered (newMoons solstices zhongqi : List Int) (i : Nat) : Prop :=
  i < newMoons.length ∧ ¬ LeapMonth newMoons solstices zhongqi i

/-- `j` is the `k`-th of the positions `kept` after `i`. -/
def KthAfter (kept : Nat → Prop) : Nat → Nat → Nat → Prop
  | 0, i, j => i = j
  | k + 1, i, j => ∃ i', i < i' ∧ kept i' ∧ (∀ x, i < x → x < i' → ¬ kept x) ∧ KthAfter kept k i' j

/-- Month `j` begins a year: it is the second month, without leap months, after one with a solstice. -/
def NewYearMonth (newMoons solstices zhongqi : List Int) (j : Nat) : Prop :=
  ∃ i, SuiMonth newMoons solstices i ∧ KthAfter (Numbered newMoons solstices zhongqi) 2 i j

end TC.Spec.Lunisolar
