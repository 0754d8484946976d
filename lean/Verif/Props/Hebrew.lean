import Verif.Lemmas.Hebrew
import Verif.Lemmas.Named
import Verif.Lemmas.RuleBooks
import Verif.Lemmas.ZonesClear
import Verif.Model.Exchanges.Xtae

/-!
# C56, C57: the Hebrew calendar and the holidays of Tel Aviv
-/

namespace TC.Props
open TC.Spec TaseHolidays

/-! ### Hebrew years and Gregorian years -/

theorem dayNumber_jan1 (y d : Int) : DayNumber ⟨y, 1, 1⟩ d ↔ d = jan1 y := by
  rw [dn (by decide)]
  unfold TC.dayOf daysBeforeMonth
  simp

theorem dayNumber_dec31 (y d : Int) : DayNumber ⟨y, 12, 31⟩ d ↔ d = jan1 (y + 1) - 1 := by
  rw [dn (by decide), jan1_succ]
  unfold TC.dayOf daysBeforeMonth
  simp
  split <;> omega

theorem hebrewYear_unique {h h' d : Int} (hh : Hebrew.HebrewYear h d) (hh' : Hebrew.HebrewYear h' d) :
    h = h' := by
  obtain ⟨a, b, ha, hb, h1, h2⟩ := hh
  obtain ⟨a', b', ha', hb', h1', h2'⟩ := hh'
  obtain ⟨_, rfl⟩ := (Hebrew.roshHashanah_iff _ _).1 ha
  obtain ⟨_, rfl⟩ := (Hebrew.roshHashanah_iff _ _).1 hb
  obtain ⟨_, rfl⟩ := (Hebrew.roshHashanah_iff _ _).1 ha'
  obtain ⟨_, rfl⟩ := (Hebrew.roshHashanah_iff _ _).1 hb'
  have key : ∀ x z : Int, x < z → Hebrew.elapsedDays (x + 1) ≤ Hebrew.elapsedDays z := by
    intro x z hxz
    by_cases he : x + 1 = z
    · rw [he]; exact Int.le_refl _
    · have := Hebrew.elapsedDays_lt (h := x + 1) (h' := z) (by omega)
      omega
  by_cases hlt : h < h'
  · have := key h h' hlt; omega
  · by_cases hgt : h' < h
    · have := key h' h hgt; omega
    · omega

theorem winterYear_iff {y h : Int} (h1 : 1 ≤ y) (h2 : y ≤ 9998) :
    Hebrew.WinterYear y h ↔ h = y + 3760 := by
  have ha := newYear_bounds h1 (by omega)
  have hb := newYear_bounds (y := y + 1) (by omega) (by omega)
  rw [show y + 1 + 3760 = y + 3760 + 1 by omega] at hb
  have hs := jan1_succ y
  have hy : Hebrew.HebrewYear (y + 3760) (jan1 y) :=
    ⟨_, _, (Hebrew.roshHashanah_iff _ _).2 ⟨by omega, rfl⟩,
      (Hebrew.roshHashanah_iff _ _).2 ⟨by omega, rfl⟩, by omega, by split at hs <;> omega⟩
  constructor
  · rintro ⟨d, hd, hh⟩
    rw [dayNumber_jan1] at hd
    subst hd
    exact hebrewYear_unique hh hy
  · rintro rfl
    exact ⟨_, (dayNumber_jan1 _ _).2 rfl, hy⟩

theorem autumnYear_iff {y h : Int} (h1 : 1 ≤ y) (h2 : y ≤ 9998) :
    Hebrew.AutumnYear y h ↔ h = y + 3761 := by
  have ha := newYear_bounds (y := y + 1) (by omega) (by omega)
  rw [show y + 1 + 3760 = y + 3761 by omega] at ha
  have hl := Hebrew.elapsedDays_succ (y + 3761)
  have hc := Hebrew.daysInYear_cases (y + 3761)
  have hy : Hebrew.HebrewYear (y + 3761) (jan1 (y + 1) - 1) :=
    ⟨_, _, (Hebrew.roshHashanah_iff _ _).2 ⟨by omega, rfl⟩,
      (Hebrew.roshHashanah_iff _ _).2 ⟨by omega, rfl⟩, by omega, by omega⟩
  constructor
  · rintro ⟨d, hd, hh⟩
    rw [dayNumber_dec31] at hd
    subst hd
    exact hebrewYear_unique hh hy
  · rintro rfl
    exact ⟨_, (dayNumber_dec31 _ _).2 rfl, hy⟩

/-! ### C56: the dates are those of the Hebrew calendar -/

/-- The New Year of Gregorian year `y`. -/
theorem autumn_bounds {y : Int} (h1 : 1 ≤ y) (h2 : y ≤ 9998) :
    jan1 (y + 1) - 130 ≤ newYear y ∧ newYear y ≤ jan1 (y + 1) - 50 ∧
      newYear y = Hebrew.epoch + Hebrew.elapsedDays (y + 3761) := by
  have ha := newYear_bounds (y := y + 1) (by omega) (by omega)
  rw [show y + 1 + 3760 = y + 3761 by omega] at ha
  have : newYear y = Hebrew.epoch + Hebrew.elapsedDays (y + 3761) := by
    unfold newYear newYearOf
    rw [hebrewYear_eq' (by omega) h2, Hebrew.dayOf_tishrei]
    omega
  omega

theorem spring_eq {y : Int} (h1 : 1 ≤ y) (h2 : y ≤ 9998) :
    purim y = newYear y - 193 ∧ passover y = newYear y - 163 ∧
    memorialDayOf (hebrewYear y) = newYear y - 144 ∧ pentecost y = newYear y - 113 ∧
    fastDayOf (hebrewYear y) = newYear y - 51 := by
  have hn := (autumn_bounds h1 h2).2.2
  unfold purim passover pentecost purimOf passoverOf memorialDayOf pentecostOf fastDayOf
  rw [hebrewYear_eq h1 h2, Hebrew.dayOf_nisan, Hebrew.dayOf_iyar, Hebrew.dayOf_sivan, Hebrew.dayOf_av,
    Hebrew.dayOf_adar, hn, show y + 3760 + 1 = y + 3761 by omega]
  omega

theorem autumn_eq {y : Int} (h1 : 1 ≤ y) (h2 : y ≤ 9998) :
    yomKippur y = newYear y + 9 ∧ sukkoth y = newYear y + 14 ∧ simchatTorah y = newYear y + 21 := by
  unfold yomKippur sukkoth simchatTorah newYear newYearOf yomKippurOf sukkothOf simchatTorahOf
  simp only [Hebrew.dayOf_tishrei]
  omega

theorem weekday_newYear {y : Int} (h1 : 1 ≤ y) (h2 : y ≤ 9998) :
    weekday (newYear y) = 0 ∨ weekday (newYear y) = 1 ∨ weekday (newYear y) = 3 ∨
      weekday (newYear y) = 5 := by
  have hn := (autumn_bounds h1 h2).2.2
  have hw := Hebrew.elapsedDays_weekday (y + 3761)
  rw [hn]
  unfold weekday Hebrew.epoch
  omega

theorem memorialDay_eq {y : Int} (h1 : 1 ≤ y) (h2 : y ≤ 9998) :
    memorialDay y = newYear y - 144 -
      (if weekday (newYear y - 144) = 3 then 1 else if weekday (newYear y - 144) = 4 then 2 else 0) := by
  have hs := (spring_eq h1 h2).2.2.1
  have hw := weekday_newYear h1 h2
  unfold memorialDay
  rw [hs]
  generalize newYear y = n at *
  unfold Hebrew.weekday weekday at *
  dsimp only
  repeat' split
  all_goals omega

theorem fastDay_eq {y : Int} (h1 : 1 ≤ y) (h2 : y ≤ 9998) :
    fastDay y = newYear y - 51 + (if weekday (newYear y - 51) = 5 then 1 else 0) := by
  have hs := (spring_eq h1 h2).2.2.2.2
  unfold fastDay
  rw [hs]
  generalize newYear y = n at *
  unfold Hebrew.weekday weekday at *
  dsimp only
  repeat' split
  all_goals omega

theorem in_year {y d : Int} (h : jan1 y ≤ d ∧ d < jan1 (y + 1)) : InYear d y :=
  (inYear_iff _ _).2 ((yearOf_eq_iff _ _).2 h)

theorem rosh {y : Int} (h1 : 1 ≤ y) (h2 : y ≤ 9998) (d : Int) :
    Hebrew.RoshHashanah (y + 3761) d ↔ d = newYear y := by
  rw [Hebrew.roshHashanah_iff, (autumn_bounds h1 h2).2.2]
  omega

theorem rosh' {y : Int} (h1 : 1 ≤ y) (h2 : y ≤ 9998) (d : Int) :
    Hebrew.RoshHashanah (y + 3760 + 1) d ↔ d = newYear y := by
  rw [← rosh h1 h2, show y + 3760 + 1 = y + 3761 by omega]

/-- C56.  `_hebrew_year(y)` is the one Hebrew year containing January 1 of year `y`, and `f(x+1) =
f(x) + 1`, for all years of `datetime`. -/
theorem c56_hebrew_year (y : Int) (h1 : 1 ≤ y) (h2 : y ≤ 9998) :
    (∀ h, Hebrew.WinterYear y h ↔ h = hebrewYear y) ∧ hebrewYear (y + 1) = hebrewYear y + 1 := by
  rw [hebrewYear_eq h1 h2, hebrewYear_eq' (by omega) h2]
  exact ⟨fun h => winterYear_iff h1 h2, by omega⟩

/-- C56.  `purim`, `passover` and `pentecost` of a Gregorian year are the 14th of Adar (Adar II in a leap
year), the 15th of Nisan and the 6th of Sivan of the Hebrew year containing its January 1, and lie in that
Gregorian year. -/
theorem c56_spring (y : Int) (h1 : 1 ≤ y) (h2 : y ≤ 9998) {h : Int} (hh : Hebrew.WinterYear y h) :
    (Hebrew.Purim h (purim y) ∧ InYear (purim y) y) ∧
    (Hebrew.Passover h (passover y) ∧ InYear (passover y) y) ∧
    (Hebrew.Pentecost h (pentecost y) ∧ InYear (pentecost y) y) := by
  rw [winterYear_iff h1 h2] at hh
  subst hh
  obtain ⟨e1, e2, _, e4, _⟩ := spring_eq h1 h2
  obtain ⟨b1, b2, _⟩ := autumn_bounds h1 h2
  have hs := jan1_succ y
  unfold Hebrew.Purim Hebrew.Pentecost Hebrew.Passover
  rw [rosh' h1 h2, rosh' h1 h2, rosh' h1 h2]
  split at hs <;> refine ⟨⟨by omega, in_year ?_⟩, ⟨by omega, in_year ?_⟩, by omega, in_year ?_⟩ <;> omega

/-- C56.  `new_year`, `yom_kippur`, `sukkoth` and `simchat_torah` of a Gregorian year are the 1st, 10th,
15th and 22nd of Tishrei of the Hebrew year containing its December 31, and lie in that Gregorian
year. -/
theorem c56_autumn (y : Int) (h1 : 1 ≤ y) (h2 : y ≤ 9998) {h : Int} (hh : Hebrew.AutumnYear y h) :
    (Hebrew.Tishrei 1 h (newYear y) ∧ InYear (newYear y) y) ∧
    (Hebrew.Tishrei 10 h (yomKippur y) ∧ InYear (yomKippur y) y) ∧
    (Hebrew.Tishrei 15 h (sukkoth y) ∧ InYear (sukkoth y) y) ∧
    (Hebrew.Tishrei 22 h (simchatTorah y) ∧ InYear (simchatTorah y) y) := by
  rw [autumnYear_iff h1 h2] at hh
  subst hh
  obtain ⟨e1, e2, e3⟩ := autumn_eq h1 h2
  obtain ⟨b1, b2, _⟩ := autumn_bounds h1 h2
  have hs := jan1_succ y
  unfold Hebrew.Tishrei
  rw [rosh h1 h2, rosh h1 h2, rosh h1 h2, rosh h1 h2]
  split at hs <;>
    refine ⟨⟨by omega, in_year ?_⟩, ⟨by omega, in_year ?_⟩, ⟨by omega, in_year ?_⟩, by omega, in_year ?_⟩ <;>
    omega

/-- C56.  The dates are determined: nothing else is the New Year or Passover of a Hebrew year. -/
theorem c56_unique {h d d' : Int} :
    (Hebrew.RoshHashanah h d → Hebrew.RoshHashanah h d' → d = d') ∧
    (Hebrew.Passover h d → Hebrew.Passover h d' → d = d') := by
  unfold Hebrew.Passover
  simp only [Hebrew.roshHashanah_iff]
  exact ⟨fun a b => by omega, fun a b => by omega⟩

/-- C56.  The New Year is never a Sunday, Wednesday or Friday; Yom Kippur therefore never a Friday or
Sunday, and Passover never a Monday, Wednesday or Friday. -/
theorem c56_weekdays (y : Int) (h1 : 1 ≤ y) (h2 : y ≤ 9998) :
    (¬ IsWeekday (newYear y) 6 ∧ ¬ IsWeekday (newYear y) 2 ∧ ¬ IsWeekday (newYear y) 4) ∧
    (¬ IsWeekday (yomKippur y) 4 ∧ ¬ IsWeekday (yomKippur y) 6) ∧
    (¬ IsWeekday (passover y) 0 ∧ ¬ IsWeekday (passover y) 2 ∧ ¬ IsWeekday (passover y) 4) := by
  have hw := weekday_newYear h1 h2
  obtain ⟨_, e2, _⟩ := spring_eq h1 h2
  obtain ⟨e1, _⟩ := autumn_eq h1 h2
  simp only [weekday_iff, e1, e2]
  generalize newYear y = n at *
  unfold weekday at *
  omega

/-- C56.  From one New Year to the next there are 353, 354 or 355 days, or 383, 384 or 385 if the Hebrew
year between them is a leap year.  (pyluach finds the lengths of Cheshvan and Kislev from the last digit
of that number.) -/
theorem c56_year_length (y : Int) (h1 : 1 ≤ y) (h2 : y ≤ 9997) {h : Int} (hh : Hebrew.AutumnYear y h) :
    (¬ Hebrew.Leap h ∧ newYear (y + 1) - newYear y ∈ [353, 354, (355 : Int)]) ∨
    (Hebrew.Leap h ∧ newYear (y + 1) - newYear y ∈ [383, 384, (385 : Int)]) := by
  rw [autumnYear_iff h1 (by omega)] at hh
  subst hh
  have a1 := (autumn_bounds h1 (by omega)).2.2
  have a2 := (autumn_bounds (y := y + 1) (by omega) (by omega)).2.2
  rw [show y + 1 + 3761 = y + 3761 + 1 by omega, Hebrew.elapsedDays_succ] at a2
  have hc := Hebrew.daysInYear_cases (y + 3761)
  rw [← Hebrew.not_leap_iff, ← Hebrew.leap_iff]
  simp only [List.mem_cons, List.not_mem_nil, or_false]
  rcases hc with ⟨hl, hc⟩ | ⟨hl, hc⟩
  · exact .inl ⟨hl, by omega⟩
  · exact .inr ⟨hl, by omega⟩

/-- Example: Rosh Hashanah 5780 was 30 September 2019, Passover 5779 was 20 April 2019, and Hebrew year
5779, a leap year, contains 1 January 2019. -/
example : Hebrew.RoshHashanah 5780 (dayOf 2019 9 30) ∧ Hebrew.Passover 5779 (dayOf 2019 4 20) ∧
    Hebrew.Leap 5779 ∧ Hebrew.WinterYear 2019 5779 ∧ Hebrew.AutumnYear 2019 5780 := by
  refine ⟨?_, ?_, by decide, (winterYear_iff (by decide) (by decide)).2 (by decide),
    (autumnYear_iff (by decide) (by decide)).2 (by decide)⟩
  · exact (Hebrew.roshHashanah_iff _ _).2 ⟨by decide, by decide⟩
  · exact (Hebrew.roshHashanah_iff _ _).2 ⟨by decide, by decide⟩

/-- The docstring of `_hebrew_year` says that January 1 always falls into Tevet or Shevat, the fourth and
fifth month.  Not so in 1968: with 30 days of Tishrei, 29 of Cheshvan and 30 of Kislev (the year had 354
days), January 1 was still the last day of Kislev.  (Nothing depends on that claim.) -/
example : ∃ a b, Hebrew.WinterYear 1968 5728 ∧ Hebrew.RoshHashanah 5728 a ∧ Hebrew.RoshHashanah 5729 b ∧
    b - a = 354 ∧ dayOf 1968 1 1 < a + 30 + 29 + 30 := by
  refine ⟨_, _, (winterYear_iff (by decide) (by decide)).2 (by decide),
    (Hebrew.roshHashanah_iff _ _).2 ⟨by decide, rfl⟩, (Hebrew.roshHashanah_iff _ _).2 ⟨by decide, rfl⟩,
    by decide, by decide⟩

/-! ### C57: Memorial day and the fast -/

/-- C57.  `memorial_day` is the 4th of Iyar with the adjustments its comments describe, in the given
Gregorian year; Independence day, the day after, is a Monday, Wednesday or Thursday. -/
theorem c57_memorial_day (y : Int) (h1 : 1 ≤ y) (h2 : y ≤ 9998) {h : Int} (hh : Hebrew.WinterYear y h) :
    Hebrew.MemorialDay h (memorialDay y) ∧ InYear (memorialDay y) y ∧ InYear (memorialDay y + 1) y ∧
    (IsWeekday (memorialDay y + 1) 0 ∨ IsWeekday (memorialDay y + 1) 2 ∨
      IsWeekday (memorialDay y + 1) 3) := by
  rw [winterYear_iff h1 h2] at hh
  subst hh
  obtain ⟨b1, b2, _⟩ := autumn_bounds h1 h2
  have hs := jan1_succ y
  have hw := weekday_newYear h1 h2
  have hm := memorialDay_eq h1 h2
  unfold Hebrew.MemorialDay Hebrew.Iyar4 Hebrew.Passover
  simp only [rosh' h1 h2, weekday_iff]
  have hb : jan1 y < memorialDay y ∧ memorialDay y + 1 < jan1 (y + 1) := by
    split at hs <;> (repeat' split at hm) <;> omega
  refine ⟨?_, in_year (by omega), in_year (by omega), ?_⟩
  · generalize newYear y = n at *
    generalize memorialDay y = m at *
    unfold weekday at *
    repeat' split at hm
    all_goals omega
  · generalize newYear y = n at *
    generalize memorialDay y = m at *
    unfold weekday at *
    repeat' split at hm
    all_goals omega

/-- C57.  The last adjustment of `memorial_day` never applies: the 4th of Iyar is never a Saturday. -/
theorem c57_memorial_day_saturday {h d : Int} (hd : Hebrew.Iyar4 h d) : ¬ IsWeekday d 5 := by
  unfold Hebrew.Iyar4 Hebrew.Passover at hd
  rw [Hebrew.roshHashanah_iff] at hd
  have hw := Hebrew.elapsedDays_weekday (h + 1)
  rw [weekday_iff]
  unfold weekday
  simp only [Hebrew.epoch] at hd
  omega

/-- C57.  It should have been Sunday: `memorial_day` is the day of the law if and only if the 4th of Iyar
is not a Sunday.  (The law moves it since 2004; the calendar is documented from 2019 on.) -/
theorem c57_memorial_day_law (y : Int) (h1 : 1 ≤ y) (h2 : y ≤ 9998) {h : Int}
    (hh : Hebrew.WinterYear y h) {i : Int} (hi : Hebrew.Iyar4 h i) :
    Hebrew.LawfulMemorialDay h (memorialDay y) ↔ ¬ IsWeekday i 6 := by
  rw [winterYear_iff h1 h2] at hh
  subst hh
  have hw := weekday_newYear h1 h2
  have hm := memorialDay_eq h1 h2
  unfold Hebrew.Iyar4 Hebrew.Passover at hi
  rw [rosh' h1 h2] at hi
  unfold Hebrew.LawfulMemorialDay Hebrew.Iyar4 Hebrew.Passover
  simp only [rosh' h1 h2, weekday_iff]
  generalize newYear y = n at *
  generalize memorialDay y = m at *
  unfold weekday at *
  repeat' split at hm
  all_goals omega

/-- The first such year in the documented range: in 2024 the 4th of Iyar was Sunday, May 12.  The
calendar has Memorial day on that day and Independence day on May 13; they were held on May 13 and 14. -/
example : Hebrew.Iyar4 5784 (dayOf 2024 5 12) ∧ IsWeekday (dayOf 2024 5 12) 6 ∧
    memorialDay 2024 = dayOf 2024 5 12 ∧ Hebrew.LawfulMemorialDay 5784 (dayOf 2024 5 13) := by
  have h : Hebrew.Iyar4 5784 (dayOf 2024 5 12) := (Hebrew.roshHashanah_iff _ _).2 ⟨by decide, by decide⟩
  refine ⟨h, (weekday_iff _ _).2 (by decide), by decide, .inr (.inr (.inr ⟨?_, ?_⟩))⟩
  · rw [show dayOf 2024 5 13 - 1 = dayOf 2024 5 12 by decide]; exact h
  · rw [show dayOf 2024 5 13 - 1 = dayOf 2024 5 12 by decide]; exact (weekday_iff _ _).2 (by decide)

/-- C57.  `fast_day` is the 9th of Av, or the Sunday after if that is a Saturday; it is in the given
Gregorian year and never a Saturday. -/
theorem c57_fast_day (y : Int) (h1 : 1 ≤ y) (h2 : y ≤ 9998) {h : Int} (hh : Hebrew.WinterYear y h) :
    Hebrew.FastDay h (fastDay y) ∧ InYear (fastDay y) y ∧ ¬ IsWeekday (fastDay y) 5 := by
  rw [winterYear_iff h1 h2] at hh
  subst hh
  obtain ⟨b1, b2, _⟩ := autumn_bounds h1 h2
  have hs := jan1_succ y
  have hm := fastDay_eq h1 h2
  unfold Hebrew.FastDay Hebrew.Av9 Hebrew.Passover
  simp only [rosh' h1 h2, weekday_iff]
  have hb : jan1 y < fastDay y ∧ fastDay y < jan1 (y + 1) := by
    split at hs <;> (repeat' split at hm) <;> omega
  refine ⟨?_, in_year (by omega), ?_⟩
  · generalize newYear y = n at *
    generalize fastDay y = m at *
    unfold weekday at *
    repeat' split at hm
    all_goals omega
  · generalize newYear y = n at *
    generalize fastDay y = m at *
    unfold weekday at *
    repeat' split at hm
    all_goals omega

/-- Example: in 2019 and 2022 the 9th of Av was a Saturday. -/
example : fastDay 2019 = dayOf 2019 8 11 ∧ fastDay 2020 = dayOf 2020 7 30 ∧
    memorialDay 2019 = dayOf 2019 5 8 ∧ memorialDay 2021 = dayOf 2021 4 14 := by decide

/-! ### C54, C55 for Tel Aviv -/

/-- The function of an offset. -/
def total (f : Int → Int) (y : Int) : Int := if 1 ≤ y ∧ y ≤ 9998 then f y else dayOf y 6 1

/-- The dates of `f` are well inside their year. -/
def Inside (f : Int → Int) : Prop :=
  ∀ y, 1 ≤ y → y ≤ 9998 → jan1 y + 6 < f y ∧ f y + 6 < jan1 (y + 1)

theorem total_inside {f : Int → Int} (hf : Inside f) (y : Int) :
    jan1 y + 6 < total f y ∧ total f y + 6 < jan1 (y + 1) := by
  unfold total
  split
  · next h => exact hf y h.1 h.2
  · have := jan1_succ y
    unfold dayOf daysBeforeMonth
    simp only [show (decide ((2 : Int) < 6) && isLeap y) = isLeap y by simp]
    split at this <;> simp_all <;> omega

theorem inside_all : Inside purim ∧ Inside passover ∧ Inside memorialDay ∧ Inside pentecost ∧
    Inside fastDay ∧ Inside newYear ∧ Inside yomKippur ∧ Inside sukkoth ∧ Inside simchatTorah := by
  have key : ∀ y, 1 ≤ y → y ≤ 9998 → ∀ k, -193 ≤ k → k ≤ 21 →
      jan1 y + 6 < newYear y + k ∧ newYear y + k + 6 < jan1 (y + 1) := by
    intro y h1 h2 k k1 k2
    obtain ⟨b1, b2, _⟩ := autumn_bounds h1 h2
    have hs := jan1_succ y
    split at hs <;> omega
  have of : ∀ f : Int → Int, (∀ y, 1 ≤ y → y ≤ 9998 → ∃ k, -193 ≤ k ∧ k ≤ 21 ∧ f y = newYear y + k) →
      Inside f := by
    intro f hf y h1 h2
    obtain ⟨k, k1, k2, he⟩ := hf y h1 h2
    rw [he]
    exact key y h1 h2 k k1 k2
  refine ⟨of _ fun y h1 h2 => ⟨-193, by decide, by decide, (spring_eq h1 h2).1⟩,
    of _ fun y h1 h2 => ⟨-163, by decide, by decide, (spring_eq h1 h2).2.1⟩,
    of _ fun y h1 h2 => ?_,
    of _ fun y h1 h2 => ⟨-113, by decide, by decide, (spring_eq h1 h2).2.2.2.1⟩,
    of _ fun y h1 h2 => ?_,
    of _ fun y h1 h2 => ⟨0, by decide, by decide, (Int.add_zero _).symm⟩,
    of _ fun y h1 h2 => ⟨9, by decide, by decide, (autumn_eq h1 h2).1⟩,
    of _ fun y h1 h2 => ⟨14, by decide, by decide, (autumn_eq h1 h2).2.1⟩,
    of _ fun y h1 h2 => ⟨21, by decide, by decide, (autumn_eq h1 h2).2.2⟩⟩
  · have hm := memorialDay_eq h1 h2
    exact ⟨memorialDay y - newYear y, by (repeat' split at hm) <;> omega,
      by (repeat' split at hm) <;> omega, by omega⟩
  · have hm := fastDay_eq h1 h2
    exact ⟨fastDay y - newYear y, by split at hm <;> omega, by split at hm <;> omega, by omega⟩

/-- The rule keeps its holiday `k` days after the date of the year. -/
theorem kept_holiday {f : Int → Int} (hf : Inside f) {k : Option Int}
    (y d : Int) : KeptOn (holiday f k) y d ↔ d = total f y + k.getD 0 := by
  have ht := total_inside hf y
  have hy : yearOf (jan1 y) = y := (yearOf_eq_iff _ _).2 ⟨Int.le_refl _, by omega⟩
  have hmoves : ∀ v, Moves (offset f) (jan1 y) v ↔ v = total f y := by
    intro v
    unfold offset Moves
    simp only [inYear_iff, hy]
    constructor
    · rintro ⟨y', rfl, ⟨_, rfl⟩ | ⟨h, _⟩⟩
      · rfl
      · have : total f y ≤ jan1 y := h
        omega
    · rintro rfl
      refine ⟨y, rfl, .inl ⟨?_, rfl⟩⟩
      have : jan1 y < total f y := by omega
      exact this
  unfold KeptOn holiday
  simp only [dayNumber_jan1]
  constructor
  · rintro ⟨u, rfl, h, _⟩
    cases k with
    | none =>
      obtain ⟨v, hv, hd⟩ := h
      rw [hmoves] at hv
      simp only [MovesAll] at hd
      simp; omega
    | some k =>
      obtain ⟨v, hv, w, hw, hd⟩ := h
      rw [hmoves] at hv
      simp only [MovesAll, Moves] at hd hw
      simp; omega
  · rintro rfl
    refine ⟨_, rfl, ?_, by simp⟩
    cases k with
    | none => exact ⟨_, (hmoves _).2 rfl, by simp [MovesAll]⟩
    | some k => exact ⟨_, (hmoves _).2 rfl, _, rfl, rfl⟩

theorem holiday_good {f : Int → Int} (hf : Inside f) {k : Option Int} (hk : -6 ≤ k.getD 0 ∧ k.getD 0 ≤ 6) :
    GoodRule (holiday f k) ∧ Near (holiday f k) := by
  refine ⟨⟨fun y => everyYear_valid (m := 1) (k := 1) (by decide) y, ?_, by simp [holiday]⟩, near_of_strictly ?_⟩
  · intro o ho
    cases k with
    | none => simp [holiday, offset] at ho; subst ho; trivial
    | some k =>
      simp [holiday, offset] at ho
      rcases ho with rfl | rfl <;> trivial
  · intro y d h
    rw [kept_holiday hf] at h
    have ht := total_inside hf y
    exact ⟨y, in_year (by omega), by omega, by omega⟩

theorem xtae_good : GoodRules Xtae.exchange.regular := by
  obtain ⟨i1, i2, i3, i4, i5, i6, i7, i8, i9⟩ := inside_all
  have : ∀ r ∈ Xtae.exchange.regular, GoodRule r ∧ Near r := by
    simp only [Xtae.exchange, Xtae.regular, List.mem_cons, List.not_mem_nil, or_false]
    rintro r (rfl | rfl | rfl | rfl | rfl | rfl | rfl | rfl | rfl | rfl | rfl | rfl | rfl | rfl | rfl |
      rfl | rfl | rfl | rfl)
    · exact holiday_good i1 (by decide)
    · exact holiday_good i2 (by decide)
    · exact holiday_good i2 (by decide)
    · exact holiday_good i2 (by decide)
    · exact holiday_good i2 (by decide)
    · exact holiday_good i3 (by decide)
    · exact holiday_good i3 (by decide)
    · exact holiday_good i4 (by decide)
    · exact holiday_good i4 (by decide)
    · exact holiday_good i5 (by decide)
    · exact holiday_good i6 (by decide)
    · exact holiday_good i6 (by decide)
    · exact holiday_good i6 (by decide)
    · exact holiday_good i7 (by decide)
    · exact holiday_good i7 (by decide)
    · exact holiday_good i8 (by decide)
    · exact holiday_good i8 (by decide)
    · exact holiday_good i9 (by decide)
    · exact holiday_good i9 (by decide)
  exact ⟨fun r hr => (this r hr).1, fun r hr => (this r hr).2⟩

/-- C54 for `XTAEExchangeCalendar`. -/
theorem c54_xtae : Constructible Xtae.exchange [] :=
  constructible_good (by decide) xtae_good ⟨by simp [Xtae.exchange, Exchange.specialRules],
    by simp [Xtae.exchange, Exchange.specialRules]⟩ (by decide) (by decide) (by decide)

/-- C54 for `XTAEExchangeCalendar` in `Asia/Tel_Aviv`. -/
theorem c54_xtae_zone : ConstructibleFrom Xtae.exchange Xtae.zone (dayOf 1700 1 2) [] :=
  constructibleFrom_of c54_xtae clear_asiaTelAviv (by decide +kernel) (by decide)

/-- A rule of `tase_holidays.py` within the window of regular holidays. -/
theorem isHoliday_tase {f : Int → Int} (hf : Inside f) {k : Option Int}
    (hk : -6 ≤ k.getD 0 ∧ k.getD 0 ≤ 6) {d : Int} (h0 : 0 ≤ d) (h1 : d ≤ 84370) :
    IsHoliday (holiday f k) d ↔ ∃ y, 1 ≤ y ∧ y ≤ 9998 ∧ d = f y + k.getD 0 := by
  have hi : IsHoliday (holiday f k) d ↔ ∃ y, KeptOn (holiday f k) y d := by
    unfold IsHoliday
    simp [holiday]
  rw [hi]
  simp only [kept_holiday hf]
  have key : ∀ y, d = total f y + k.getD 0 → 1 ≤ y ∧ y ≤ 9998 := by
    intro y hd
    have ht := total_inside hf y
    unfold jan1 at ht
    omega
  constructor
  · rintro ⟨y, hd⟩
    have := key y hd
    refine ⟨y, this.1, this.2, ?_⟩
    unfold total at hd
    rw [if_pos this] at hd
    exact hd
  · rintro ⟨y, a, b, hd⟩
    refine ⟨y, ?_⟩
    unfold total
    rw [if_pos ⟨a, b⟩]
    exact hd

/-- A holiday of the rule book is near January 1 of its year. -/
theorem telAviv_years {y d : Int} (h : Hebrew.TelAvivHoliday y d) (h0 : 0 ≤ d) (h1 : d ≤ 84370) :
    1 ≤ y ∧ y ≤ 9998 := by
  have near : ∀ {h d' e : Int}, Hebrew.HebrewYear h d' → (Hebrew.RoshHashanah (h + 1) e ∨
      Hebrew.RoshHashanah h e) → d' - 800 ≤ e ∧ e ≤ d' + 800 := by
    rintro h d' e ⟨a, b, ha, hb, l1, l2⟩ he
    rw [Hebrew.roshHashanah_iff] at ha hb
    rw [Hebrew.roshHashanah_iff, Hebrew.roshHashanah_iff] at he
    have := Hebrew.elapsedDays_succ h
    have := Hebrew.daysInYear_cases h
    omega
  have hj : ∀ e : Int, jan1 y - 1000 ≤ e → e ≤ jan1 y + 1500 → (e - 300 ≤ d ∧ d ≤ e + 300) →
      1 ≤ y ∧ y ≤ 9998 := by
    intro e l1 l2 l3
    unfold jan1 at *
    omega
  have hs := jan1_succ y
  rcases h with ⟨h, ⟨d', hd, hh⟩, hc⟩ | ⟨h, ⟨d', hd, hh⟩, hc⟩
  · rw [dayNumber_jan1] at hd
    subst hd
    have : ∃ e, Hebrew.RoshHashanah (h + 1) e ∧ e - 300 ≤ d ∧ d ≤ e + 300 := by
      unfold Hebrew.FastDay Hebrew.MemorialDay Hebrew.Purim Hebrew.Iyar4 Hebrew.Av9 Hebrew.Pentecost
        Hebrew.Passover at hc
      simp only [Hebrew.roshHashanah_iff] at hc ⊢
      refine ⟨_, ⟨by omega, rfl⟩, by omega, by omega⟩
    obtain ⟨e, he, hde⟩ := this
    have := near hh (.inl he)
    exact hj e (by omega) (by omega) hde
  · rw [dayNumber_dec31] at hd
    subst hd
    have : ∃ e, Hebrew.RoshHashanah h e ∧ e - 300 ≤ d ∧ d ≤ e + 300 := by
      unfold Hebrew.Tishrei at hc
      simp only [Hebrew.roshHashanah_iff] at hc ⊢
      refine ⟨_, ⟨by omega, rfl⟩, by omega, by omega⟩
    obtain ⟨e, he, hde⟩ := this
    have := near hh (.inr he)
    exact hj e (by split at hs <;> omega) (by split at hs <;> omega) hde

theorem memorial_iff {y d : Int} (h1 : 1 ≤ y) (h2 : y ≤ 9998) :
    Hebrew.MemorialDay (y + 3760) d ↔ d = memorialDay y := by
  have hw := weekday_newYear h1 h2
  have hm := memorialDay_eq h1 h2
  unfold Hebrew.MemorialDay Hebrew.Iyar4 Hebrew.Passover
  simp only [rosh' h1 h2, weekday_iff]
  generalize newYear y = n at *
  generalize memorialDay y = m at *
  unfold weekday at *
  repeat' split at hm
  all_goals omega

theorem fast_iff {y d : Int} (h1 : 1 ≤ y) (h2 : y ≤ 9998) :
    Hebrew.FastDay (y + 3760) d ↔ d = fastDay y := by
  have hm := fastDay_eq h1 h2
  unfold Hebrew.FastDay Hebrew.Av9 Hebrew.Passover
  simp only [rosh' h1 h2, weekday_iff]
  generalize newYear y = n at *
  generalize fastDay y = m at *
  unfold weekday at *
  repeat' split at hm
  all_goals omega

theorem xtae_holidays {d : Int} (h0 : 0 ≤ d) (h1 : d ≤ 84370) :
    (∃ r ∈ Xtae.exchange.regular, IsHoliday r d) ↔ ∃ y, Hebrew.TelAvivHoliday y d := by
  obtain ⟨i1, i2, i3, i4, i5, i6, i7, i8, i9⟩ := inside_all
  have key : (∃ y, Hebrew.TelAvivHoliday y d) ↔ ∃ y, (1 ≤ y ∧ y ≤ 9998) ∧ Hebrew.TelAvivHoliday y d :=
    ⟨fun ⟨y, hy⟩ => ⟨y, telAviv_years hy h0 h1, hy⟩, fun ⟨y, _, hy⟩ => ⟨y, hy⟩⟩
  rw [key]
  simp only [Xtae.exchange, Xtae.regular, List.mem_cons, List.not_mem_nil, or_false, exists_eq_or_imp,
    exists_eq_left]
  have hh : ∀ {f : Int → Int} {k : Option Int}, Inside f → (-6 ≤ k.getD 0 ∧ k.getD 0 ≤ 6) →
      (IsHoliday (holiday f k) d ↔ ∃ y, 1 ≤ y ∧ y ≤ 9998 ∧ d = f y + k.getD 0) :=
    fun hf hk => isHoliday_tase hf hk h0 h1
  rw [hh i1 (by decide), hh i2 (by decide), hh i2 (by decide), hh i2 (by decide), hh i2 (by decide),
    hh i3 (by decide), hh i3 (by decide), hh i4 (by decide), hh i4 (by decide), hh i5 (by decide),
    hh i6 (by decide), hh i6 (by decide), hh i6 (by decide), hh i7 (by decide), hh i7 (by decide),
    hh i8 (by decide), hh i8 (by decide), hh i9 (by decide), hh i9 (by decide)]
  simp only [← exists_or]
  refine exists_congr fun y => ?_
  by_cases hy : 1 ≤ y ∧ y ≤ 9998
  · obtain ⟨y1, y2⟩ := hy
    obtain ⟨e1, e2, _, e4, _⟩ := spring_eq y1 y2
    obtain ⟨a1, a2, a3⟩ := autumn_eq y1 y2
    unfold Hebrew.TelAvivHoliday
    simp only [winterYear_iff y1 y2, autumnYear_iff y1 y2, exists_eq_left, memorial_iff y1 y2,
      fast_iff y1 y2]
    unfold Hebrew.Purim Hebrew.Pentecost Hebrew.Passover Hebrew.Tishrei
    simp only [rosh y1 y2, rosh' y1 y2, y1, y2, true_and, e1, e2, e4, a1, a2, a3]
    simp only [Option.getD]
    generalize newYear y = n
    omega
  · have : ∀ p : Prop, ¬ (1 ≤ y ∧ y ≤ 9998 ∧ p) := fun p hp => hy ⟨hp.1, hp.2.1⟩
    simp only [this, hy, false_and, or_false]

/-- C55 for Tel Aviv.  However an XTAE calendar was constructed, its sessions from 1970 to 2200 are the
Sundays to Thursdays other than the holidays of the Hebrew calendar it documents and the four election
days. -/
theorem c55_tel_aviv {z : Tz} {start stop : Int} {b : Built}
    (hb : build (Xtae.exchange.config z) start stop = .ok b) (hm : DAY ∣ start) {d : Int}
    (h1 : start ≤ d * DAY) (h2 : d * DAY ≤ stop) (h3 : 0 ≤ d) (h4 : d ≤ 84370) :
    d * DAY ∈ b.cal.sessions ↔
      (¬ IsWeekday d 4 ∧ ¬ IsWeekday d 5) ∧ ¬ OnDates Hebrew.telAvivClosures d ∧
        ∀ y, ¬ Hebrew.TelAvivHoliday y d := by
  rw [sessions_iff xtae_good hb hm h1 h2]
  unfold TradesOn
  have hw : (∃ w ∈ Xtae.exchange.weekdays, IsWeekday d w) ↔ ¬ IsWeekday d 4 ∧ ¬ IsWeekday d 5 := by
    simp only [Xtae.exchange, Xtae.weekdays, List.mem_cons, List.not_mem_nil, or_false, exists_eq_or_imp,
      exists_eq_left, weekday_iff]
    unfold weekday
    omega
  rw [hw, show Xtae.exchange.adhoc = Xtae.adhoc from rfl,
    onDates_iff (l := Hebrew.telAvivClosures) (by decide) d]
  refine and_congr_right fun _ => and_congr_right fun _ => ?_
  have hx := xtae_holidays h3 h4
  constructor
  · intro h y hy
    obtain ⟨r, hr, hd⟩ := hx.2 ⟨y, hy⟩
    exact h h3 h4 r hr hd
  · intro h _ _ r hr hd
    obtain ⟨y, hy⟩ := hx.1 ⟨r, hr, hd⟩
    exact h y hy

/-- Example: the calendar can be constructed for 2019 to 2023 in its own zone. -/
example : ∃ b, build (Xtae.exchange.config Xtae.zone) (dayOf 2019 1 1 * DAY) (dayOf 2023 12 31 * DAY) =
    .ok b := by
  obtain ⟨b, hb, _⟩ := (c54_xtae_zone (dayOf 2019 1 1 * DAY) (dayOf 2023 12 31 * DAY) (by decide)
    (Int.dvd_mul_left _ _)).succeeds (by simp)
    ⟨dayOf 2019 2 3, by decide, by decide,
      (tradesB_iff xtae_good _).1 (by decide +kernel)⟩
  exact ⟨b, hb⟩

end TC.Props
