import Verif.Lemmas.Named
import Verif.Model.Exchanges.UsHolidays

/-!
# C44, C45: the named holidays of `us_holidays.py`

`Yields r P` says that in every window the dates of rule `r` are exactly the days `d` with `P y d` for
some year `y`.
-/

namespace TC.Props
open Spec UsHolidays

/-! ## C44: floating holidays -/

/-- Closes `IsHoliday r d ↔ ∃ y, …` from the year bounds, the meaning in each year, and that the
holiday stays in its year. -/
macro "by_years " lo:term ", " hi:term ", " k:term ", " i:term : tactic =>
  `(tactic| (intro d; rw [holiday_years (lo := $lo) (hi := $hi) ⟨rfl, rfl⟩ rfl $k $i]; simp [within, and_assoc]; try exact Iff.rfl))

/-- C44.  Martin Luther King day: from 1998 on, the third Monday of January. -/
theorem c44_martin_luther_king :
    Yields usMartinLutherKingJrAfter1998 fun y d => 1998 ≤ y ∧ NthWeekday 3 0 y 1 d :=
  yields_of (by decide) (by decide) rfl (by
    by_years some 1998, none, (kept_nth rfl rfl rfl rfl (by decide) (by decide)),
      (fun _ _ => InYear.of_nth))

/-- C44.  Presidents' day: from 1971 on, the third Monday of February. -/
theorem c44_presidents_day :
    Yields UsHolidays.usPresidentsDay fun y d => 1971 ≤ y ∧ NthWeekday 3 0 y 2 d :=
  yields_of (by decide) (by decide) rfl (by
    by_years some 1971, none, (kept_nth rfl rfl rfl rfl (by decide) (by decide)),
      (fun _ _ => InYear.of_nth))

/-- C44.  The same rule as pandas has it, used by the futures exchanges: every year. -/
theorem c44_presidents_day_pandas :
    Yields TC.usPresidentsDay fun y d => NthWeekday 3 0 y 2 d :=
  yields_of (by decide) (by decide) rfl (by
    by_years none, none, (kept_nth rfl rfl rfl rfl (by decide) (by decide)),
      (fun _ _ => InYear.of_nth))

/-- C44.  Memorial day: from 1971 on, the last Monday of May. -/
theorem c44_memorial_day :
    Yields usMemorialDay fun y d => 1971 ≤ y ∧ LastWeekday 0 y 5 d :=
  yields_of (by decide) (by decide) rfl (by
    by_years some 1971, none, (kept_last rfl rfl rfl (by decide) (by intro y; rfl)),
      (fun _ _ => InYear.of_last))

/-- C44.  Memorial day before 1964: May 30, the Monday after if that is a Sunday. -/
theorem c44_memorial_day_before_1964 :
    Yields usMemorialDayBefore1964 fun y d => y ≤ 1963 ∧ SundayToMonday y 5 30 d :=
  yields_of (by decide) (by decide) rfl (by
    by_years none, some 1963, (kept_sundayToMonday rfl rfl),
      (fun _ _ => InYear.of_sundayToMonday (by decide) (by decide)))

/-- C44.  Memorial day from 1964 to 1969: May 30, moved to the nearest weekday.  (So no Memorial day
is known for 1970.) -/
theorem c44_memorial_day_1964_to_1969 :
    Yields usMemorialDay1964to1969 fun y d => 1964 ≤ y ∧ y ≤ 1969 ∧ NearestWorkday y 5 30 d :=
  yields_of (by decide) (by decide) rfl (by
    by_years some 1964, some 1969, (kept_nearestWorkday rfl rfl),
      (fun _ _ => InYear.of_nearestWorkday (by decide) (by decide) (by decide)))

/-- C44.  Labor day: the first Monday of September. -/
theorem c44_labor_day : Yields usLaborDay fun y d => NthWeekday 1 0 y 9 d :=
  yields_of (by decide) (by decide) rfl (by
    by_years none, none, (kept_nth rfl rfl rfl rfl (by decide) (by decide)),
      (fun _ _ => InYear.of_nth))

/-- C44.  Thanksgiving: from 1942 on, the fourth Thursday of November. -/
theorem c44_thanksgiving :
    Yields UsHolidays.usThanksgivingDay fun y d => 1942 ≤ y ∧ NthWeekday 4 3 y 11 d :=
  yields_of (by decide) (by decide) rfl (by
    by_years some 1942, none, (kept_nth rfl rfl rfl rfl (by decide) (by decide)),
      (fun _ _ => InYear.of_nth))

/-- C44.  The same rule as pandas has it: every year. -/
theorem c44_thanksgiving_pandas :
    Yields TC.usThanksgivingDay fun y d => NthWeekday 4 3 y 11 d :=
  yields_of (by decide) (by decide) rfl (by
    by_years none, none, (kept_nth rfl rfl rfl rfl (by decide) (by decide)),
      (fun _ _ => InYear.of_nth))

/-- C44.  Thanksgiving from 1864 to 1938: the last Thursday of November. -/
theorem c44_thanksgiving_before_1939 :
    Yields usThanksgivingDayBefore1939 fun y d =>
      1864 ≤ y ∧ y ≤ 1938 ∧ LastWeekday 3 y 11 d :=
  yields_of (by decide) (by decide) rfl (by
    by_years some 1864, some 1938,
      (fun y d => by
        have := kept_back (r := usThanksgivingDayBefore1939) (w := 3) (n := -1) rfl rfl rfl (by decide)
          (by intro y; rfl) (by decide) y d
        simpa [usThanksgivingDayBefore1939] using this),
      (fun _ _ => InYear.of_last))

/-- C44.  Thanksgiving from 1939 to 1941: the second to last Thursday of November, a week before the
last. -/
theorem c44_thanksgiving_1939_to_1941 :
    Yields usThanksgivingDay1939to1941 fun y d =>
      1939 ≤ y ∧ y ≤ 1941 ∧ LastWeekday 3 y 11 (d + 7) :=
  yields_of (by decide) (by decide) rfl (by
    by_years some 1939, some 1941,
      (fun y d => by
        have := kept_back (r := usThanksgivingDay1939to1941) (w := 3) (n := -2) rfl rfl rfl (by decide)
          (by intro y; rfl) (by decide) y d
        simpa [usThanksgivingDay1939to1941] using this),
      (fun _ _ => InYear.of_last_minus (by decide)))

/-- C44.  Election day from 1848 to 1967: the Tuesday after the first Monday of November. -/
theorem c44_election_day_before_1968 :
    Yields usElectionDay1848to1967 fun y d =>
      1848 ≤ y ∧ y ≤ 1967 ∧ NthWeekday 1 0 y 11 (d - 1) :=
  yields_of (by decide) (by decide) rfl (by
    by_years some 1848, some 1967,
      (kept_tuesday_after_monday rfl rfl rfl rfl rfl),
      (fun _ _ => InYear.of_nth_plus (by decide)))

/-- C44.  Election day from 1968 to 1980: the same, in years divisible by four. -/
theorem c44_election_day_1968_to_1980 :
    Yields usElectionDay1968to1980 fun y d =>
      1968 ≤ y ∧ y ≤ 1980 ∧ 4 ∣ y ∧ NthWeekday 1 0 y 11 (d - 1) :=
  yields_of (by decide) (by decide) rfl fun d => by
    rw [holiday_quadrennial (lo := 1968) (hi := 1980) rfl rfl rfl rfl rfl rfl rfl]

/-- C44.  Black Friday: from 1993 on, the day after the fourth Thursday of November. -/
theorem c44_black_friday :
    Yields usBlackFridayInOrAfter1993 fun y d => 1993 ≤ y ∧ NthWeekday 4 3 y 11 (d - 1) :=
  yields_of (by decide) (by decide) rfl (by
    by_years some 1993, none, (kept_nth_plus rfl rfl rfl rfl (by decide) (by decide)),
      (fun _ _ => InYear.of_nth_plus (by decide)))

/-- C44.  The rule for Black Friday before 1993 applies to 1992 alone. -/
theorem c44_black_friday_1992 :
    Yields usBlackFridayBefore1993 fun y d => y = 1992 ∧ NthWeekday 4 3 y 11 (d - 1) :=
  yields_of (by decide) (by decide) rfl fun d => by
    rw [holiday_years_jan (lo := some 1992) (hi := 1992) rfl rfl rfl
      (kept_nth_plus rfl rfl rfl rfl (by decide) (by decide))
      (fun _ _ => InYear.of_nth_plus (by decide)) (fun y d h => ?_)]
    · simp only [within, Option.some.injEq, forall_eq']
      constructor
      · rintro ⟨y, h1, h2⟩; exact ⟨y, by omega, h2⟩
      · rintro ⟨y, h1, h2⟩; exact ⟨y, by omega, h2⟩
    · obtain ⟨j, hj, _⟩ := h
      have hj := (dn_of_november hj)
      rw [dayOf_jan1]
      have := hj.1
      omega

/-- The days these theorems speak of exist, once a year: every month has exactly one `n`-th weekday
`w` for `n` up to 4 … -/
theorem c44_nth_exists (y : Int) {m w n : Int} (hm : 1 ≤ m ∧ m ≤ 12) (hw : 0 ≤ w ∧ w ≤ 6)
    (hn : 1 ≤ n ∧ n ≤ 4) :
    ∃ d, NthWeekday n w y m d ∧ ∀ e, NthWeekday n w y m e → e = d := by
  have hl := monthLength_bounds y m
  have hv : ∀ k, 1 ≤ k → k ≤ 28 → Date.Valid ⟨y, m, k⟩ := fun k h1 h2 =>
    ⟨hm.1, hm.2, h1, by simp only; omega⟩
  refine ⟨dayOf y m 1 + 7 * (n - 1) + (w - weekday (dayOf y m 1)) % 7,
    ⟨1 + 7 * (n - 1) + (w - weekday (dayOf y m 1)) % 7, ?_, ?_, ?_, ?_, ?_⟩, ?_⟩
  · rw [dayNumber_iff]
    refine ⟨hv _ (by omega) (by omega), ?_⟩
    simp only
    rw [dayOf_one]; omega
  · rw [weekday_iff]; unfold weekday at *; omega
  · omega
  · omega
  · omega
  · rintro e ⟨k, hk, h1, h2, h3, _⟩
    have := ((dayNumber_iff _ _).1 hk).2
    simp only at this
    rw [dayOf_one] at this
    rw [weekday_iff] at h1
    unfold weekday at *
    omega

/-- … and exactly one last. -/
theorem c44_last_exists (y : Int) {m w : Int} (hm : 1 ≤ m ∧ m ≤ 12) (hw : 0 ≤ w ∧ w ≤ 6) :
    ∃ d, LastWeekday w y m d ∧ ∀ e, LastWeekday w y m e → e = d := by
  have hl := monthLength_bounds y m
  refine ⟨dayOf y m 1 + (monthLength y m - 7) +
      (w - weekday (dayOf y m 1 + (monthLength y m - 7))) % 7,
    ⟨1 + (monthLength y m - 7) + (w - weekday (dayOf y m 1 + (monthLength y m - 7))) % 7,
      ?_, ?_, ?_, ?_⟩, ?_⟩
  · rw [dayNumber_iff]
    refine ⟨⟨hm.1, hm.2, by simp only; omega, by simp only; omega⟩, ?_⟩
    simp only
    rw [dayOf_one]; omega
  · rw [weekday_iff]; unfold weekday at *; omega
  · omega
  · omega
  · rintro e ⟨k, hk, h1, h2, h3⟩
    have := ((dayNumber_iff _ _).1 hk).2
    simp only at this
    rw [dayOf_one] at this
    rw [weekday_iff] at h1
    unfold weekday at *
    omega

/-- Thanksgiving 2019 was on November 28, day 18228. -/
example : NthWeekday 4 3 2019 11 18228 :=
  ⟨28, (dn (by decide) 2019 18228).2 (by decide), (weekday_iff _ _).2 (by decide), by decide, by decide,
    by decide⟩

/-- The rule yields it. -/
example : 18228 * DAY ∈ UsHolidays.usThanksgivingDay.dates (18000 * DAY) (18300 * DAY) := by
  decide +kernel

/-- Memorial day 2019 was on May 27, day 18043. -/
example : LastWeekday 0 2019 5 18043 :=
  ⟨27, (dn (by decide) 2019 18043).2 (by decide), (weekday_iff _ _).2 (by decide), by decide,
    by decide⟩

/-! ## C45: observed holidays -/

/-- C45.  New Year's day is kept on January 1, or on Monday January 2: never in the previous year. -/
theorem c45_new_year :
    Yields usNewYearsDay fun y d =>
      (DayNumber ⟨y, 1, 1⟩ d ∧ ¬ IsWeekday d 6) ∨ (DayNumber ⟨y, 1, 2⟩ d ∧ IsWeekday d 0) :=
  yields_of (by decide) (by decide) rfl (by
    by_years none, none,
      (fun y d => (kept_sundayToMonday rfl rfl y d).trans
        (sundayToMonday_iff (by decide) (by decide) y d)),
      (fun y d h => by rcases h with ⟨h, _⟩ | ⟨h, _⟩ <;> exact inYear_of h))

/-- C45.  Christmas from 1954 on is kept on a weekday December 25, a Friday December 24 or a Monday
December 26. -/
theorem c45_christmas :
    Yields UsHolidays.christmas fun y d => 1954 ≤ y ∧
      ((DayNumber ⟨y, 12, 25⟩ d ∧ ¬ IsWeekday d 5 ∧ ¬ IsWeekday d 6) ∨
       (DayNumber ⟨y, 12, 24⟩ d ∧ IsWeekday d 4) ∨ (DayNumber ⟨y, 12, 26⟩ d ∧ IsWeekday d 0)) :=
  yields_of (by decide) (by decide) rfl (by
    by_years some 1954, none,
      (fun y d => (kept_nearestWorkday rfl rfl y d).trans
        (nearestWorkday_iff (by decide) (by decide) (by decide) y d)),
      (fun y d h => by rcases h with ⟨h, _⟩ | ⟨h, _⟩ | ⟨h, _⟩ <;> exact inYear_of h))

/-- C45.  So in every year from 1954 on, Christmas closes exactly one day, which is a Monday to Friday
from December 24 to 26. -/
theorem c45_christmas_once (y : Int) (hy : 1954 ≤ y) :
    ∃ d, (∃ k, 24 ≤ k ∧ k ≤ 26 ∧ DayNumber ⟨y, 12, k⟩ d) ∧ (∃ w, 0 ≤ w ∧ w ≤ 4 ∧ IsWeekday d w) ∧
      ∀ start stop u first last, DayNumber ⟨y, 1, 1⟩ first → DayNumber ⟨y, 12, 31⟩ last →
        first * DAY ≤ start → stop ≤ last * DAY →
        (u ∈ UsHolidays.christmas.dates start stop ↔ u = d * DAY ∧ start ≤ u ∧ u ≤ stop) := by
  have key : ∀ y', ∀ d, NearestWorkday y' 12 25 d ↔ d = nearestWorkday (dayOf y' 12 25) := by
    intro y' d
    unfold NearestWorkday nearestWorkday
    simp only [dn (show everyYear 12 25 = true by decide), weekday_iff]
    unfold weekday
    repeat' split
    all_goals omega
  have h25 : nearestWorkday (dayOf y 12 25) = dayOf y 12 25 ∨
    nearestWorkday (dayOf y 12 25) = dayOf y 12 24 ∨ nearestWorkday (dayOf y 12 25) = dayOf y 12 26 := by
    have e1 := dayOf_one y 12 25
    have e2 := dayOf_one y 12 24
    have e3 := dayOf_one y 12 26
    unfold nearestWorkday
    repeat' split
    all_goals omega
  refine ⟨nearestWorkday (dayOf y 12 25), ?_, ?_, ?_⟩
  · rcases h25 with h | h | h <;> rw [h]
    · exact ⟨25, by decide, by decide, (dn (by decide) _ _).2 rfl⟩
    · exact ⟨24, by decide, by decide, (dn (by decide) _ _).2 rfl⟩
    · exact ⟨26, by decide, by decide, (dn (by decide) _ _).2 rfl⟩
  · refine ⟨weekday (nearestWorkday (dayOf y 12 25)), ?_, ?_, (weekday_iff _ _).2 rfl⟩
    · unfold weekday; omega
    · unfold nearestWorkday weekday; repeat' split
      all_goals omega
  · intro start stop u first last hf hl h1 h2
    rw [c45_christmas start stop u]
    have near := fun y d => (nearestWorkday_iff (m := 12) (k := 25) (by decide) (by decide) (by decide)
      y d).symm.trans (key y d)
    simp only [Int.reduceAdd, Int.reduceSub] at near
    simp only [near]
    constructor
    · rintro ⟨y', d, rfl, ⟨h3, rfl⟩, h4, h5⟩
      have e : y' = y := by
        have hin : InYear (nearestWorkday (dayOf y' 12 25)) y' :=
          InYear.of_nearestWorkday (by decide) (by decide) (by decide) ((key y' _).2 rfl)
        have a := (inYear_ge hin y).1 (by
          have := (dn (show everyYear 1 1 = true by decide) _ _).1 hf
          simp only [DAY] at *; omega)
        have b := (inYear_le hin y).1 (by
          have := (dn (show everyYear 12 31 = true by decide) _ _).1 hl
          simp only [DAY] at *; omega)
        omega
      subst e
      exact ⟨rfl, h4, h5⟩
    · rintro ⟨rfl, h4, h5⟩
      exact ⟨y, _, rfl, ⟨hy, rfl⟩, h4, h5⟩

/-- C45.  Independence day from 1954 on: July 4, moved to the nearest weekday. -/
theorem c45_independence_day :
    Yields usIndependenceDay fun y d => 1954 ≤ y ∧ NearestWorkday y 7 4 d :=
  yields_of (by decide) (by decide) rfl (by
    by_years some 1954, none, (kept_nearestWorkday rfl rfl),
      (fun _ _ => InYear.of_nearestWorkday (by decide) (by decide) (by decide)))

/-- Christmas 2021 fell on a Saturday and was kept on Friday December 24, day 18985. -/
example : 18985 * DAY ∈ UsHolidays.christmas.dates (18900 * DAY) (19000 * DAY) := by decide +kernel

/-- New Year 2022 fell on a Saturday, day 18993: it is not moved to December 31, 2021. -/
example : usNewYearsDay.dates (18900 * DAY) (19000 * DAY) = [18993 * DAY] := by decide +kernel

end TC.Props
