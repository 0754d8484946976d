import Verif.Lemmas.DayBits
import Verif.Props.Hebrew

/-!
# Closures and yearly numbers of trading days (C84): XTAE

The dates of `tase_holidays.py` are numbers of days before or after the Hebrew New Year (C56, C57), which a table
contains.
-/

namespace TC.Props
open Spec TaseHolidays

set_option maxRecDepth 100000

/-- The Hebrew New Years from 1969 to 2201. -/
def roshTable : List Int :=
  [-110, 273, 627, 982, 1365, 1720, 2074, 2459, 2812, 3196, 3551, 3906, 4289, 4643, 4998, 5383, 5737, 6120,
   6475, 6829, 7212, 7567, 7921, 8306, 8659, 9014, 9398, 9753, 10136, 10490, 10845, 11230, 11583, 11937,
   12322, 12677, 13060, 13414, 13769, 14152, 14506, 14861, 15246, 15600, 15953, 16338, 16692, 17077, 17430,
   17784, 18169, 18524, 18877, 19261, 19616, 19999, 20354, 20708, 21093, 21448, 21802, 22185, 22540, 22894,
   23277, 23632, 24017, 24371, 24724, 25109, 25463, 25818, 26201, 26555, 26940, 27293, 27648, 28032, 28387,
   28740, 29124, 29479, 29834, 30217, 30571, 30956, 31311, 31665, 32048, 32403, 32757, 33140, 33495, 33880,
   34234, 34587, 34972, 35326, 35681, 36064, 36418, 36773, 37156, 37511, 37895, 38250, 38603, 38987, 39342,
   39697, 40080, 40434, 40819, 41174, 41528, 41911, 42266, 42620, 43003, 43358, 43712, 44097, 44450, 44835,
   45189, 45544, 45927, 46281, 46636, 47021, 47374, 47758, 48113, 48468, 48851, 49205, 49560, 49945, 50299,
   50652, 51037, 51391, 51774, 52129, 52483, 52868, 53221, 53575, 53960, 54315, 54698, 55052, 55407, 55790,
   56145, 56499, 56884, 57239, 57593, 57976, 58331, 58714, 59068, 59423, 59808, 60162, 60515, 60900, 61254,
   61637, 61992, 62346, 62731, 63084, 63439, 63823, 64178, 64531, 64915, 65270, 65653, 66008, 66362, 66747,
   67102, 67456, 67839, 68194, 68577, 68931, 69286, 69671, 70025, 70378, 70763, 71117, 71472, 71855, 72209,
   72594, 72947, 73302, 73686, 74041, 74394, 74778, 75133, 75518, 75871, 76225, 76610, 76965, 77319, 77702,
   78057, 78411, 78796, 79149, 79534, 79888, 80243, 80626, 80980, 81335, 81718, 82072, 82457, 82812, 83165,
   83549, 83904, 84259, 84642]

theorem roshTable_eq : (dayRange 1969 2201).map newYear = roshTable := by
  rw [← show (dayRange 1969 2201).map (fun y => Hebrew.epoch + Hebrew.elapsedDays (y + 3761)) = roshTable by
    decide +kernel]
  refine List.map_congr_left fun y hy => ?_
  rw [mem_dayRange] at hy
  exact (autumn_bounds (by omega) (by omega)).2.2

/-- The holidays in the year with the Hebrew New Year `n`. -/
def telAvivDates (n : Int) : List Int :=
  let m := n - 144 - (if weekday (n - 144) = 3 then 1 else if weekday (n - 144) = 4 then 2 else 0)
  let f := n - 51 + (if weekday (n - 51) = 5 then 1 else 0)
  [n - 193, n - 164, n - 163, n - 158, n - 157, m, m + 1, n - 114, n - 113, f,
   n - 1, n, n + 1, n + 8, n + 9, n + 13, n + 14, n + 20, n + 21]

/-- XTAE with the dates of its holidays in the place of rules. -/
def telAvivTable : Exchange :=
  { Xtae.exchange with
    regular := []
    adhoc := Xtae.adhoc ++ (roshTable.flatMap telAvivDates).filter fun d => decide (0 ≤ d) && decide (d ≤ 84370) }

theorem telAviv_rules {d : Int} (h0 : 0 ≤ d) (h1 : d ≤ 84370) :
    (∃ r ∈ Xtae.exchange.regular, IsHoliday r d) ↔ ∃ y, 1 ≤ y ∧ y ≤ 9998 ∧ d ∈ telAvivDates (newYear y) := by
  obtain ⟨i1, i2, i3, i4, i5, i6, i7, i8, i9⟩ := inside_all
  simp only [Xtae.exchange, Xtae.regular, List.mem_cons, List.not_mem_nil, or_false, exists_eq_or_imp, exists_eq_left]
  rw [isHoliday_tase i1 (by decide) h0 h1, isHoliday_tase i2 (by decide) h0 h1,
    isHoliday_tase i2 (by decide) h0 h1, isHoliday_tase i2 (by decide) h0 h1,
    isHoliday_tase i2 (by decide) h0 h1, isHoliday_tase i3 (by decide) h0 h1,
    isHoliday_tase i3 (by decide) h0 h1, isHoliday_tase i4 (by decide) h0 h1,
    isHoliday_tase i4 (by decide) h0 h1, isHoliday_tase i5 (by decide) h0 h1,
    isHoliday_tase i6 (by decide) h0 h1, isHoliday_tase i6 (by decide) h0 h1,
    isHoliday_tase i6 (by decide) h0 h1, isHoliday_tase i7 (by decide) h0 h1,
    isHoliday_tase i7 (by decide) h0 h1, isHoliday_tase i8 (by decide) h0 h1,
    isHoliday_tase i8 (by decide) h0 h1, isHoliday_tase i9 (by decide) h0 h1,
    isHoliday_tase i9 (by decide) h0 h1]
  simp only [← exists_or, ← and_or_left, Option.getD_none, Option.getD_some]
  refine exists_congr fun y => and_congr_right fun h1 => and_congr_right fun h2 => ?_
  obtain ⟨s1, s2, -, s4, -⟩ := spring_eq h1 h2
  obtain ⟨a1, a2, a3⟩ := autumn_eq h1 h2
  rw [s1, s2, s4, a1, a2, a3, memorialDay_eq h1 h2, fastDay_eq h1 h2]
  unfold telAvivDates
  simp only [List.mem_cons, List.not_mem_nil, or_false]
  generalize newYear y = n
  generalize n - 144 - (if weekday (n - 144) = 3 then 1 else if weekday (n - 144) = 4 then 2 else 0) = m
  generalize n - 51 + (if weekday (n - 51) = 5 then 1 else 0) = f
  omega

theorem telAviv_trades (d : Int) : TradesOn Xtae.exchange d ↔ TradesOn telAvivTable d := by
  unfold TradesOn telAvivTable
  simp only [List.not_mem_nil, false_implies, implies_true, and_true, List.mem_append, not_or]
  refine and_congr Iff.rfl (and_congr Iff.rfl ?_)
  rw [List.mem_filter, Bool.and_eq_true, decide_eq_true_eq, decide_eq_true_eq, List.mem_flatMap]
  constructor
  · rintro hh ⟨⟨n, hn, hd⟩, h0, h1⟩
    rw [← roshTable_eq, List.mem_map] at hn
    obtain ⟨y, hy, rfl⟩ := hn
    rw [mem_dayRange] at hy
    obtain ⟨r, hr, hk⟩ := (telAviv_rules h0 h1).2 ⟨y, by omega, by omega, hd⟩
    exact hh h0 h1 r hr hk
  · intro hh h0 h1 r hr hk
    obtain ⟨y, a, b, hd⟩ := (telAviv_rules h0 h1).1 ⟨r, hr, hk⟩
    refine hh ⟨⟨newYear y, ?_, hd⟩, h0, h1⟩
    have hy : 1969 ≤ y ∧ y ≤ 2201 := by
      have near : newYear y - 193 - 2 ≤ d ∧ d ≤ newYear y + 21 := by
        unfold telAvivDates at hd
        simp only [List.mem_cons, List.not_mem_nil, or_false] at hd
        repeat' split at hd
        all_goals omega
      obtain ⟨b1, b2, -⟩ := autumn_bounds a b
      unfold jan1 at b1 b2
      omega
    rw [← roshTable_eq]
    exact List.mem_map_of_mem ((mem_dayRange _ _ _).2 hy)

/-- C84 for `XTAE`. -/
theorem c84_xtae : LongestClosure (TradesOn Xtae.exchange) 5 ∧
    YearlyRange (TradesOn Xtae.exchange) 1990 2200 244 250 := by
  rw [show TradesOn Xtae.exchange = TradesOn telAvivTable from funext fun d => propext (telAviv_trades d)]
  exact stats_of (g := 4) (k := 211) ⟨by simp [telAvivTable], by simp [telAvivTable]⟩ (by decide +kernel)
    (by decide) (by decide) (by decide +kernel)

end TC.Props
