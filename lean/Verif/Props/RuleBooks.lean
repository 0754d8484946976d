import Verif.Lemmas.RuleBooks
import Verif.Props.Exchanges1
import Verif.Props.Exchanges2
import Verif.Props.Exchanges3
import Verif.Props.Exchanges4

/-!
# C48, C55: exchanges follow their rule books
-/

namespace TC.Props
open Spec UsHolidays

/-- `IsHoliday r d ↔ ∃ y, …` from year bounds, the meaning in each year, and that the holiday stays in
its year. -/
macro "years " lo:term ", " hi:term ", " k:term ", " i:term : term =>
  `((holiday_years (lo := $lo) (hi := $hi) ⟨rfl, rfl⟩ rfl $k $i _))

/-! ## C55: New York -/

theorem xnys_holidays (d : Int) (hd : 0 ≤ d) :
    (∃ r ∈ Xnys.exchange.regular, IsHoliday r d) ↔ ∃ y, NewYorkHoliday y d := by
  have h1 : IsHoliday usNewYearsDay d ↔ ∃ y, _ ∧ SundayToMonday y 1 1 d :=
    years none, none, (kept_sundayToMonday rfl rfl),
      (fun _ _ => InYear.of_sundayToMonday (by decide) (by decide))
  have h2 : IsHoliday usMartinLutherKingJrAfter1998 d ↔ ∃ y, _ ∧ NthWeekday 3 0 y 1 d :=
    years some 1998, none, (kept_nth rfl rfl rfl rfl (by decide) (by decide)),
      (fun _ _ => InYear.of_nth)
  have h3 := ended (r := usLincolnsBirthDayBefore1954) rfl rfl (by decide) hd
  have h4 := ended (r := usWashingtonsBirthDayBefore1964) rfl rfl (by decide) hd
  have h5 : IsHoliday usWashingtonsBirthDay1964to1970 d ↔ ∃ y, _ ∧ NearestWorkday y 2 22 d :=
    years some 1964, some 1970, (kept_nearestWorkday rfl rfl),
      (fun _ _ => InYear.of_nearestWorkday (by decide) (by decide) (by decide))
  have h6 : IsHoliday UsHolidays.usPresidentsDay d ↔ ∃ y, _ ∧ NthWeekday 3 0 y 2 d :=
    years some 1971, none, (kept_nth rfl rfl rfl rfl (by decide) (by decide)),
      (fun _ _ => InYear.of_nth)
  have h7 := holiday_goodFriday d
  have h8 := ended (r := usMemorialDayBefore1964) rfl rfl (by decide) hd
  have h9 := ended (r := usMemorialDay1964to1969) rfl rfl (by decide) hd
  have h10 : IsHoliday usMemorialDay d ↔ ∃ y, _ ∧ LastWeekday 0 y 5 d :=
    years some 1971, none, (kept_last rfl rfl rfl (by decide) (by intro y; rfl)),
      (fun _ _ => InYear.of_last)
  have h11 := ended (r := usIndependenceDayBefore1954) rfl rfl (by decide) hd
  have h12 : IsHoliday usIndependenceDay d ↔ ∃ y, _ ∧ NearestWorkday y 7 4 d :=
    years some 1954, none, (kept_nearestWorkday rfl rfl),
      (fun _ _ => InYear.of_nearestWorkday (by decide) (by decide) (by decide))
  have h13 : IsHoliday usLaborDay d ↔ ∃ y, _ ∧ NthWeekday 1 0 y 9 d :=
    years none, none, (kept_nth rfl rfl rfl rfl (by decide) (by decide)), (fun _ _ => InYear.of_nth)
  have h14 := ended (r := usThanksgivingDayBefore1939) rfl rfl (by decide) hd
  have h15 := ended (r := usThanksgivingDay1939to1941) rfl rfl (by decide) hd
  have h16 : IsHoliday UsHolidays.usThanksgivingDay d ↔ ∃ y, _ ∧ NthWeekday 4 3 y 11 d :=
    years some 1942, none, (kept_nth rfl rfl rfl rfl (by decide) (by decide)),
      (fun _ _ => InYear.of_nth)
  have h17 := ended (r := usElectionDay1848to1967) rfl rfl (by decide) hd
  have h18 := holiday_quadrennial (r := usElectionDay1968to1980) (lo := 1968) (hi := 1980) rfl rfl rfl
    rfl rfl rfl rfl d
  have h19 := ended (r := usVeteransDay1934to1953) rfl rfl (by decide) hd
  have h20 := ended (r := usColumbusDayBefore1954) rfl rfl (by decide) hd
  have h21 := ended (r := christmasBefore1954) rfl rfl (by decide) hd
  have h22 : IsHoliday UsHolidays.christmas d ↔ ∃ y, _ ∧ NearestWorkday y 12 25 d :=
    years some 1954, none, (kept_nearestWorkday rfl rfl),
      (fun _ _ => InYear.of_nearestWorkday (by decide) (by decide) (by decide))
  have hel : ∀ y, NthWeekday 1 0 y 11 (d - 1) → 1970 ≤ y := fun y h =>
    year_nonneg (InYear.of_nth_plus (by decide) h) hd
  have hw : ∀ y, NearestWorkday y 2 22 d → 1970 ≤ y := fun y h =>
    year_nonneg (InYear.of_nearestWorkday (by decide) (by decide) (by decide) h) hd
  have hi : ∀ y, NearestWorkday y 7 4 d → 1970 ≤ y := fun y h =>
    year_nonneg (InYear.of_nearestWorkday (by decide) (by decide) (by decide) h) hd
  have hc : ∀ y, NearestWorkday y 12 25 d → 1970 ≤ y := fun y h =>
    year_nonneg (InYear.of_nearestWorkday (by decide) (by decide) (by decide) h) hd
  have ht : ∀ y, NthWeekday 4 3 y 11 d → 1970 ≤ y := fun y h => year_nonneg (InYear.of_nth h) hd
  simp only [Xnys.exchange, Xnys.regular, List.mem_cons, List.not_mem_nil, or_false, exists_eq_or_imp,
    exists_eq_left, h1, h2, h3, h4, h5, h6, h7, h8, h9, h10, h11, h12, h13, h14, h15, h16, h17, h18,
    h19, h20, h21, h22, false_or, within, NewYorkHoliday, ← exists_or, Option.some.injEq, forall_eq',
    reduceCtorEq, false_implies, implies_true, true_and, and_true]
  refine exists_congr fun y => ?_
  have hel := hel y
  have hw := hw y
  have hi := hi y
  have hc := hc y
  have ht := ht y
  have hq : 1970 ≤ y → (1968 ≤ y ∧ y ≤ 1980 ∧ 4 ∣ y ↔ y = 1972 ∨ y = 1976 ∨ y = 1980) := by omega
  grind

/-- C55.  The sessions of XNYS from 1970 on are the Mondays to Fridays other than the holidays of the
New York rule book and its single closures. -/
theorem c55_new_york : FollowsBook Xnys.exchange NewYorkHoliday newYorkClosures :=
  follows_of (by decide) rfl (by decide +kernel) xnys_holidays

theorem daysOfWeek_iff {ws : List Int} {d : Int} :
    (∀ ws', some ws = some ws' → ∃ w ∈ ws', IsWeekday d w) ↔ ∃ w ∈ ws, IsWeekday d w := by
  simp

/-- C55.  The early closes of XNYS, in any year, are those of the New York rule book: at 13:00, and
before 1993 at 14:00. -/
theorem c55_new_york_early (d t : Int) :
    ClosesEarly Xnys.exchange d t ↔
      (t = hm 13 0 ∧ ∃ y, NewYork13 y d) ∨ (t = hm 14 0 ∧ ∃ y, NewYork14 y d) := by
  have fixed : ∀ {r : Rule} {m k : Int} {ws : List Int}, r.observance = none → r.offsets = [] →
      r.daysOfWeek = some ws → r.month = m → r.day = k → ∀ y d,
      (KeptOn r y d ↔ DayNumber ⟨y, m, k⟩ d ∧ ∃ w ∈ ws, IsWeekday d w) := by
    intro r m k ws h1 h2 h3 h4 h5 y d
    rw [kept_fixed h1 h2, h3, h4, h5]
    simp
  have h1 : IsHoliday monTuesThursBeforeIndependenceDay d ↔
      ∃ y, _ ∧ (DayNumber ⟨y, 7, 3⟩ d ∧ ∃ w ∈ [0, 1, 3], IsWeekday d w) :=
    years some 1995, none, (fixed rfl rfl rfl rfl rfl), (fun _ _ h => inYear_of h.1)
  have h2 : IsHoliday fridayAfterIndependenceDayPre2013 d ↔
      ∃ y, _ ∧ (DayNumber ⟨y, 7, 5⟩ d ∧ ∃ w ∈ [4], IsWeekday d w) :=
    holiday_years_jan (lo := some 1995) (hi := 2012) rfl rfl rfl (fixed rfl rfl rfl rfl rfl)
      (fun _ _ h => inYear_of h.1) (fun y d h => not_jan1 (by decide) (by decide) h.1) d
  have h3 : IsHoliday wednesdayBeforeIndependenceDayPost2013 d ↔
      ∃ y, _ ∧ (DayNumber ⟨y, 7, 3⟩ d ∧ ∃ w ∈ [2], IsWeekday d w) :=
    years some 2013, none, (fixed rfl rfl rfl rfl rfl), (fun _ _ h => inYear_of h.1)
  have h4 : IsHoliday usBlackFridayInOrAfter1993 d ↔ ∃ y, _ ∧ NthWeekday 4 3 y 11 (d - 1) :=
    years some 1993, none, (kept_nth_plus rfl rfl rfl rfl (by decide) (by decide)),
      (fun _ _ => InYear.of_nth_plus (by decide))
  have h5 : IsHoliday christmasEveInOrAfter1993 d ↔
      ∃ y, _ ∧ (DayNumber ⟨y, 12, 24⟩ d ∧ ∃ w ∈ [0, 1, 2, 3], IsWeekday d w) :=
    years some 1993, none, (fixed rfl rfl rfl rfl rfl), (fun _ _ h => inYear_of h.1)
  have h6 : IsHoliday christmasEveBefore1993 d ↔
      ∃ y, _ ∧ (DayNumber ⟨y, 12, 24⟩ d ∧ ∃ w ∈ [0, 1, 2, 3], IsWeekday d w) :=
    holiday_years_jan (lo := none) (hi := 1992) rfl rfl rfl (fixed rfl rfl rfl rfl rfl)
      (fun _ _ h => inYear_of h.1) (fun y d h => not_jan1 (by decide) (by decide) h.1) d
  have h7 : IsHoliday usBlackFridayBefore1993 d ↔ ∃ y, _ ∧ NthWeekday 4 3 y 11 (d - 1) :=
    holiday_years_jan (lo := some 1992) (hi := 1992) rfl rfl rfl
      (kept_nth_plus rfl rfl rfl rfl (by decide) (by decide))
      (fun _ _ => InYear.of_nth_plus (by decide)) (fun y d h => by
        obtain ⟨j, hj, _⟩ := h
        have := (dn_of_november hj).1
        rw [dayOf_jan1]
        omega) d
  have hw : (∃ w ∈ [0, 1, 2, (3 : Int)], IsWeekday d w) ↔ ∃ w, 0 ≤ w ∧ w ≤ 3 ∧ IsWeekday d w := by
    constructor
    · rintro ⟨w, hw, h⟩
      refine ⟨w, ?_, ?_, h⟩ <;> simp at hw <;> omega
    · rintro ⟨w, h1, h2, h⟩
      refine ⟨w, ?_, h⟩
      simp
      omega
  have hyear : ∀ P : Prop, (P ↔ ∃ y, P ∧ InYear d y) := fun P =>
    ⟨fun h => ⟨yearOf d, h, (inYear_iff _ _).2 rfl⟩, fun ⟨_, h, _⟩ => h⟩
  have had : d ∈ [dayOf 1997 12 26, dayOf 1999 12 31, dayOf 2003 12 26] ↔
      ∃ y, OnDates [(1997, 12, 26), (1999, 12, 31), (2003, 12, 26)] d ∧ InYear d y :=
    (onDates_iff (by decide) d).trans (hyear _)
  have key : ClosesEarly Xnys.exchange d t ↔
      (t = hm 13 0 ∧ (IsHoliday monTuesThursBeforeIndependenceDay d ∨
        IsHoliday fridayAfterIndependenceDayPre2013 d ∨
        IsHoliday wednesdayBeforeIndependenceDayPost2013 d ∨
        IsHoliday usBlackFridayInOrAfter1993 d ∨ IsHoliday christmasEveInOrAfter1993 d ∨
        d ∈ [dayOf 1997 12 26, dayOf 1999 12 31, dayOf 2003 12 26])) ∨
      (t = hm 14 0 ∧ (IsHoliday christmasEveBefore1993 d ∨ IsHoliday usBlackFridayBefore1993 d)) := by
    unfold ClosesEarly
    constructor
    · rintro (⟨rules, hmem, r, hr, hd⟩ | ⟨days, hmem, hd⟩)
      · simp only [Xnys.exchange, Xnys.specialCloses, List.mem_cons, List.not_mem_nil, or_false,
          Prod.mk.injEq] at hmem
        rcases hmem with ⟨rfl, rfl⟩ | ⟨rfl, rfl⟩
        · refine .inl ⟨rfl, ?_⟩
          simp only [List.mem_cons, List.not_mem_nil, or_false] at hr
          rcases hr with rfl | rfl | rfl | rfl | rfl <;> simp only [hd, true_or, or_true]
        · refine .inr ⟨rfl, ?_⟩
          simp only [List.mem_cons, List.not_mem_nil, or_false] at hr
          rcases hr with rfl | rfl <;> simp only [hd, true_or, or_true]
      · simp only [Xnys.exchange, Xnys.specialClosesAdhoc, List.mem_cons, List.not_mem_nil, or_false,
          Prod.mk.injEq] at hmem
        obtain ⟨rfl, rfl⟩ := hmem
        exact .inl ⟨rfl, by simp only [hd, or_true]⟩
    · rintro (⟨rfl, h | h | h | h | h | h⟩ | ⟨rfl, h | h⟩)
      · exact .inl ⟨_, List.mem_cons_self, _, by simp, h⟩
      · exact .inl ⟨_, List.mem_cons_self, _, by simp, h⟩
      · exact .inl ⟨_, List.mem_cons_self, _, by simp, h⟩
      · exact .inl ⟨_, List.mem_cons_self, _, by simp, h⟩
      · exact .inl ⟨_, List.mem_cons_self, _, by simp, h⟩
      · exact .inr ⟨_, List.mem_cons_self, h⟩
      · exact .inl ⟨_, List.mem_cons_of_mem _ List.mem_cons_self, _, by simp, h⟩
      · exact .inl ⟨_, List.mem_cons_of_mem _ List.mem_cons_self, _, by simp, h⟩
  rw [key]
  simp only [hw] at h5 h6
  simp only [NewYork13, NewYork14]
  generalize (∃ w, 0 ≤ w ∧ w ≤ 3 ∧ IsWeekday d w) = monThu at *
  simp only [h1, h2, h3, h4, h5, h6, h7, had, ← exists_or, within,
    Option.some.injEq, forall_eq', reduceCtorEq, false_implies, implies_true, true_and, and_true,
    List.mem_cons, List.not_mem_nil, or_false, exists_eq_or_imp, exists_eq_left]
  refine or_congr (and_congr_right fun _ => exists_congr fun y => ?_)
    (and_congr_right fun _ => exists_congr fun y => ?_)
  · clear h1 h2 h3 h4 h5 h6 h7 had hw hyear key
    grind
  · clear h1 h2 h3 h4 h5 h6 h7 had hw hyear key
    grind

/-- Examples on both sides: Thursday 2019-07-04 is a holiday, Wednesday 2019-07-03 closes at 13:00, and
C55 applies to a calendar that can be built. -/
example : NewYorkHoliday 2019 (dayOf 2019 7 4) ∧ NewYork13 2019 (dayOf 2019 7 3) ∧
    ∃ b, build (Xnys.exchange.config Xnys.zone) (dayOf 2019 1 1 * DAY) (dayOf 2019 12 31 * DAY) =
      .ok b := by
  have dn' := fun m k d h => (dn (m := m) (k := k) h 2019 d).2
  refine ⟨.inr (.inr (.inr (.inr (.inr (.inr (.inl (.inl ⟨dn' 7 4 _ (by decide) rfl, ?_, ?_⟩))))))),
    .inr (.inr (.inl ⟨by decide, dn' 7 3 _ (by decide) rfl, ?_⟩)), ?_⟩
  · rw [weekday_iff]; decide
  · rw [weekday_iff]; decide
  · rw [weekday_iff]; decide
  · obtain ⟨b, hb, _⟩ := (c54_xnys_zone (dayOf 2019 1 1 * DAY) (dayOf 2019 12 31 * DAY) (by decide)
      (Int.dvd_mul_left _ _)).succeeds (by decide)
      ⟨dayOf 2019 10 16, by decide, by decide, trades_of xnys_check (by decide +kernel)⟩
    exact ⟨b, hb⟩

/-! ## C55: London -/

theorem kept_fixed_plain {r : Rule} (ho : r.observance = none) (hoff : r.offsets = [])
    (hw : r.daysOfWeek = none) (y d : Int) : KeptOn r y d ↔ DayNumber ⟨y, r.month, r.day⟩ d := by
  rw [kept_fixed ho hoff, hw]
  simp

theorem kept_fixed_on {r : Rule} {m k : Int} {ws : List Int} (ho : r.observance = none)
    (hoff : r.offsets = []) (hw : r.daysOfWeek = some ws) (hm : r.month = m) (hk : r.day = k)
    (y d : Int) : KeptOn r y d ↔ DayNumber ⟨y, m, k⟩ d ∧ ∃ w ∈ ws, IsWeekday d w := by
  rw [kept_fixed ho hoff, hw, hm, hk]
  simp

theorem kept_last_back {r : Rule} {w m : Int} (ho : r.observance = none) (hw : r.daysOfWeek = none)
    (hoff : r.offsets = [.weekday w (-1)]) (hm : r.month = m) (he : everyYear m r.day = true)
    (hl : ∀ y, monthLength y m = r.day) (y d : Int) : KeptOn r y d ↔ LastWeekday w y m d := by
  subst hm
  have := kept_back (n := -1) ho hw hoff he hl (by decide) y d
  simpa using this

/-- A made-up day: two days after a weekend day. -/
theorem made_up {k k' : Int} (h : everyYear 12 k = true) (h' : everyYear 12 k' = true)
    (hk : k' = k + 2) (y d : Int) :
    (DayNumber ⟨y, 12, k'⟩ d ∧ ∃ w ∈ [0, (1 : Int)], IsWeekday d w) ↔
      (DayNumber ⟨y, 12, k'⟩ d ∧ ∃ c, DayNumber ⟨y, 12, k⟩ c ∧ (IsWeekday c 5 ∨ IsWeekday c 6)) := by
  refine and_congr_right fun hd => ?_
  rw [dn h'] at hd
  simp only [dn h, weekday_iff, List.mem_cons, List.not_mem_nil, or_false, exists_eq_or_imp,
    exists_eq_left]
  have e1 := dayOf_one y 12 k
  have e2 := dayOf_one y 12 k'
  unfold weekday
  omega

theorem xlon_holidays (d : Int) :
    (∃ r ∈ Xlon.exchange.regular, IsHoliday r d) ↔ ∃ y, LondonHoliday y d := by
  have h1 : IsHoliday Xlon.lseNewYearsDay d ↔ ∃ y, _ ∧ WeekendToMonday y 1 1 d :=
    years none, none, (kept_weekendToMonday rfl rfl),
      (fun _ _ => InYear.of_weekendToMonday (by decide) (by decide) (by decide))
  have h2 := holiday_goodFriday d
  have h3 : IsHoliday easterMonday d ↔ ∃ y, _ ∧ EasterSunday y (d - 1) :=
    years none, none, (kept_easter (k := 1) rfl rfl (by decide) rfl rfl rfl),
      (fun y d => InYear.of_easter (by decide))
  have h4 : IsHoliday Xlon.mayBankPre1995 d ↔ ∃ y, _ ∧ NthWeekday 1 0 y 5 d :=
    years none, some 1994, (kept_nth rfl rfl rfl rfl (by decide) (by decide)),
      (fun _ _ => InYear.of_nth)
  have h5 : IsHoliday Xlon.mayBankPost1995Pre2020 d ↔ ∃ y, _ ∧ NthWeekday 1 0 y 5 d :=
    years some 1996, some 2019, (kept_nth rfl rfl rfl rfl (by decide) (by decide)),
      (fun _ _ => InYear.of_nth)
  have h6 : IsHoliday Xlon.mayBankPost2020 d ↔ ∃ y, _ ∧ NthWeekday 1 0 y 5 d :=
    years some 2021, none, (kept_nth rfl rfl rfl rfl (by decide) (by decide)),
      (fun _ _ => InYear.of_nth)
  have h7 : IsHoliday Xlon.springBankPre2002 d ↔ ∃ y, _ ∧ LastWeekday 0 y 5 d :=
    years none, some 2001, (kept_last_back rfl rfl rfl rfl (by decide) (by intro y; rfl)),
      (fun _ _ => InYear.of_last)
  have h8 : IsHoliday Xlon.springBankPost2002Pre2012 d ↔ ∃ y, _ ∧ LastWeekday 0 y 5 d :=
    years some 2003, some 2011, (kept_last_back rfl rfl rfl rfl (by decide) (by intro y; rfl)),
      (fun _ _ => InYear.of_last)
  have h9 : IsHoliday Xlon.springBankPost2012 d ↔ ∃ y, _ ∧ LastWeekday 0 y 5 d :=
    years some 2013, none, (kept_last_back rfl rfl rfl rfl (by decide) (by intro y; rfl)),
      (fun _ _ => InYear.of_last)
  have h10 : IsHoliday Xlon.summerBank d ↔ ∃ y, _ ∧ LastWeekday 0 y 8 d :=
    years none, none, (kept_last_back rfl rfl rfl rfl (by decide) (by intro y; rfl)),
      (fun _ _ => InYear.of_last)
  have h11 : IsHoliday Xlon.christmas d ↔ ∃ y, _ ∧ DayNumber ⟨y, 12, 25⟩ d :=
    years none, none, (kept_fixed_plain rfl rfl rfl), (fun _ _ => inYear_of)
  have h12 : IsHoliday Xlon.weekendChristmas d ↔ ∃ y, _ ∧
      (DayNumber ⟨y, 12, 27⟩ d ∧ ∃ w ∈ [0, 1], IsWeekday d w) :=
    years none, none, (kept_fixed_on rfl rfl rfl rfl rfl), (fun _ _ h => inYear_of h.1)
  have h13 : IsHoliday Xlon.boxingDay d ↔ ∃ y, _ ∧ DayNumber ⟨y, 12, 26⟩ d :=
    years none, none, (kept_fixed_plain rfl rfl rfl), (fun _ _ => inYear_of)
  have h14 : IsHoliday Xlon.weekendBoxingDay d ↔ ∃ y, _ ∧
      (DayNumber ⟨y, 12, 28⟩ d ∧ ∃ w ∈ [0, 1], IsWeekday d w) :=
    years none, none, (kept_fixed_on rfl rfl rfl rfl rfl), (fun _ _ h => inYear_of h.1)
  simp only [made_up (k := 25) (k' := 27) (by decide) (by decide) (by decide)] at h12
  simp only [made_up (k := 26) (k' := 28) (by decide) (by decide) (by decide)] at h14
  simp only [Xlon.exchange, Xlon.regular, List.mem_cons, List.not_mem_nil, or_false, exists_eq_or_imp,
    exists_eq_left, h1, h2, h3, h4, h5, h6, h7, h8, h9, h10, h11, h12, h13, h14, within, ← exists_or,
    Option.some.injEq, forall_eq', reduceCtorEq, false_implies, implies_true, true_and, and_true]
  refine exists_congr fun y => ?_
  unfold LondonHoliday
  generalize (DayNumber ⟨y, 12, 27⟩ d ∧ ∃ c, _) = a
  generalize (DayNumber ⟨y, 12, 28⟩ d ∧ ∃ c, _) = b
  clear h1 h2 h3 h4 h5 h6 h7 h8 h9 h10 h11 h12 h13 h14
  grind

/-- C55.  The sessions of XLON from 1970 on are the Mondays to Fridays other than the holidays of the
London rule book and its single closures. -/
theorem c55_london : FollowsBook Xlon.exchange LondonHoliday londonClosures :=
  follows_of (by decide) rfl (by decide +kernel) fun d _ => xlon_holidays d

/-- C55.  The early closes of XLON, in any year, are those of the rule book. -/
theorem c55_london_early (d t : Int) :
    ClosesEarly Xlon.exchange d t ↔ t = hm 12 30 ∧ ∃ y, LondonEarly y d := by
  have h1 : IsHoliday Xlon.christmasEve d ↔ ∃ y, _ ∧ WeekendToFriday y 12 24 d :=
    years none, none, (kept_previousFriday rfl rfl),
      (fun _ _ => InYear.of_weekendToFriday (by decide) (by decide) (by decide))
  have h2 : IsHoliday Xlon.newYearsEvePre1999 d ↔ ∃ y, _ ∧ WeekendToFriday y 12 31 d :=
    holiday_years_jan (lo := none) (hi := 1998) rfl rfl rfl (kept_previousFriday rfl rfl)
      (fun _ _ => InYear.of_weekendToFriday (by decide) (by decide) (by decide)) (fun y d h => by
        have a : everyYear 12 31 = true := by decide
        rcases h with ⟨h, _⟩ | ⟨_, h | h⟩
        · exact not_jan1 a (by decide) h
        · exact not_jan1 (show everyYear 12 30 = true by decide) (by decide)
            ((dn_shift a (by decide) y d).1 h)
        · exact not_jan1 (show everyYear 12 29 = true by decide) (by decide)
            ((dn_shift a (by decide) y d).1 h)) d
  have h3 : IsHoliday Xlon.newYearsEvePost2000 d ↔ ∃ y, _ ∧ WeekendToFriday y 12 31 d :=
    years some 2000, none, (kept_previousFriday rfl rfl),
      (fun _ _ => InYear.of_weekendToFriday (by decide) (by decide) (by decide))
  have key : ClosesEarly Xlon.exchange d t ↔ t = hm 12 30 ∧ (IsHoliday Xlon.christmasEve d ∨
      IsHoliday Xlon.newYearsEvePre1999 d ∨ IsHoliday Xlon.newYearsEvePost2000 d) := by
    unfold ClosesEarly
    constructor
    · rintro (⟨rules, hmem, r, hr, hd⟩ | ⟨days, hmem, hd⟩)
      · simp only [Xlon.exchange, Xlon.specialCloses, List.mem_cons, List.not_mem_nil, or_false,
          Prod.mk.injEq] at hmem
        obtain ⟨rfl, rfl⟩ := hmem
        refine ⟨rfl, ?_⟩
        simp only [List.mem_cons, List.not_mem_nil, or_false] at hr
        rcases hr with rfl | rfl | rfl <;> simp only [hd, true_or, or_true]
      · simp [Xlon.exchange] at hmem
    · rintro ⟨rfl, h | h | h⟩
      · exact .inl ⟨_, List.mem_cons_self, _, by simp, h⟩
      · exact .inl ⟨_, List.mem_cons_self, _, by simp, h⟩
      · exact .inl ⟨_, List.mem_cons_self, _, by simp, h⟩
  rw [key]
  simp only [h1, h2, h3, within, ← exists_or, LondonEarly,
    Option.some.injEq, forall_eq', reduceCtorEq, false_implies, implies_true, true_and, and_true]
  refine and_congr_right fun _ => exists_congr fun y => ?_
  clear h1 h2 h3 key
  grind

/-! ## C55: Amsterdam, Chicago, Atlanta -/

theorem xams_holidays (d : Int) :
    (∃ r ∈ Xams.exchange.regular, IsHoliday r d) ↔ ∃ y, AmsterdamHoliday y d := by
  have h1 : IsHoliday Xams.newYearsDay d ↔ ∃ y, _ ∧ DayNumber ⟨y, 1, 1⟩ d :=
    years none, none, (kept_fixed_plain rfl rfl rfl), (fun _ _ => inYear_of)
  have h2 := holiday_goodFriday d
  have h3 : IsHoliday easterMonday d ↔ ∃ y, _ ∧ EasterSunday y (d - 1) :=
    years none, none, (kept_easter (k := 1) rfl rfl (by decide) rfl rfl rfl),
      (fun y d => InYear.of_easter (by decide))
  have h4 : IsHoliday Xams.ascensionDay d ↔ ∃ y, _ ∧ EasterSunday y (d - 39) :=
    holiday_years_jan (lo := none) (hi := 2000) rfl rfl rfl
      (kept_easter (k := 39) rfl rfl (by decide) rfl rfl rfl)
      (fun y d => InYear.of_easter (by decide))
      (fun y d h => by
        rw [easterSunday_iff] at h
        have := easter_in_year y
        rw [dayOf_jan1]; omega) d
  have h5 : IsHoliday Xams.whitMonday d ↔ ∃ y, _ ∧ EasterSunday y (d - 50) :=
    holiday_years_jan (lo := none) (hi := 2001) rfl rfl rfl
      (kept_easter (k := 50) rfl rfl (by decide) rfl rfl rfl)
      (fun y d => InYear.of_easter (by decide))
      (fun y d h => by
        rw [easterSunday_iff] at h
        have := easter_in_year y
        rw [dayOf_jan1]; omega) d
  have h6 : IsHoliday Xams.queensDay d ↔ ∃ y, _ ∧ DayNumber ⟨y, 4, 30⟩ d :=
    holiday_years_jan (lo := none) (hi := 2001) rfl rfl rfl (kept_fixed_plain rfl rfl rfl)
      (fun _ _ => inYear_of) (fun _ _ => not_jan1 (by decide) (by decide)) d
  have h7 : IsHoliday Xams.labourDay d ↔ ∃ y, _ ∧ DayNumber ⟨y, 5, 1⟩ d :=
    years none, none, (kept_fixed_plain rfl rfl rfl), (fun _ _ => inYear_of)
  have h8 : IsHoliday Xams.christmas d ↔ ∃ y, _ ∧ DayNumber ⟨y, 12, 25⟩ d :=
    years none, none, (kept_fixed_plain rfl rfl rfl), (fun _ _ => inYear_of)
  have h9 : IsHoliday Xams.boxingDay d ↔ ∃ y, _ ∧ DayNumber ⟨y, 12, 26⟩ d :=
    years none, none, (kept_fixed_plain rfl rfl rfl), (fun _ _ => inYear_of)
  have h10 : IsHoliday Xams.newYearsEveBefore2002 d ↔ ∃ y, _ ∧ DayNumber ⟨y, 12, 31⟩ d :=
    holiday_years_jan (lo := none) (hi := 2001) rfl rfl rfl (kept_fixed_plain rfl rfl rfl)
      (fun _ _ => inYear_of) (fun _ _ => not_jan1 (by decide) (by decide)) d
  simp only [Xams.exchange, Xams.regular, List.mem_cons, List.not_mem_nil, or_false, exists_eq_or_imp,
    exists_eq_left, h1, h2, h3, h4, h5, h6, h7, h8, h9, h10, within, ← exists_or,
    Option.some.injEq, forall_eq', reduceCtorEq, false_implies, implies_true, true_and, and_true,
    AmsterdamHoliday]

/-- C55.  The sessions of XAMS from 1970 on are the Mondays to Fridays other than the holidays of the
Amsterdam rule book. -/
theorem c55_amsterdam : FollowsBook Xams.exchange AmsterdamHoliday [] :=
  follows_of (by decide) rfl (by decide) fun d _ => xams_holidays d

theorem cmes_holidays (d : Int) (hd : 0 ≤ d) :
    (∃ r ∈ Cmes.exchange.regular, IsHoliday r d) ↔ ∃ y, ChicagoHoliday y d := by
  have h1 : IsHoliday usNewYearsDay d ↔ ∃ y, _ ∧ SundayToMonday y 1 1 d :=
    years none, none, (kept_sundayToMonday rfl rfl),
      (fun _ _ => InYear.of_sundayToMonday (by decide) (by decide))
  have h2 := holiday_goodFriday d
  have h3 : IsHoliday UsHolidays.christmas d ↔ ∃ y, _ ∧ NearestWorkday y 12 25 d :=
    years some 1954, none, (kept_nearestWorkday rfl rfl),
      (fun _ _ => InYear.of_nearestWorkday (by decide) (by decide) (by decide))
  simp only [Cmes.exchange, Cmes.regular, List.mem_cons, List.not_mem_nil, or_false, exists_eq_or_imp,
    exists_eq_left, h1, h2, h3, within, ← exists_or, Option.some.injEq, forall_eq', reduceCtorEq,
    false_implies, implies_true, true_and, and_true, ChicagoHoliday]
  refine exists_congr fun y => or_congr_right (or_congr_right ⟨fun h => h.2, fun h => ⟨?_, h⟩⟩)
  have := year_nonneg (InYear.of_nearestWorkday (by decide) (by decide) (by decide) h) hd
  omega

/-- C55.  The sessions of CMES from 1970 on are the Mondays to Fridays other than New Year, Good Friday,
Christmas and the national days of mourning. -/
theorem c55_chicago : FollowsBook Cmes.exchange ChicagoHoliday daysOfMourning :=
  follows_of (by decide) rfl (by decide +kernel) cmes_holidays

/-- C55.  Those of IEPA are the same except 2012-10-29. -/
theorem c55_ice_us : FollowsBook Iepa.exchange ChicagoHoliday (daysOfMourning ++ [(2012, 10, 29)]) :=
  follows_of (by decide) rfl (by decide +kernel) cmes_holidays

/-! ## C48: Christmas and New Year -/

theorem dn_unique {y m k y' m' k' d : Int} (h : DayNumber ⟨y, m, k⟩ d) (h' : DayNumber ⟨y', m', k'⟩ d) :
    y = y' ∧ m = m' ∧ k = k' := by
  obtain ⟨v, e⟩ := (dayNumber_iff _ _).1 h
  obtain ⟨v', e'⟩ := (dayNumber_iff _ _).1 h'
  have := dayOf_inj v v' (e.trans e'.symm)
  simpa using this

theorem inYear_unique {d y y' : Int} (h : InYear d y) (h' : InYear d y') : y = y' := by
  rw [inYear_iff] at h h'; omega

theorem not_easter_december {y m k d : Int} (hm : m = 1 ∧ k ≤ 10 ∨ m = 12) {e y' : Int}
    (he : -2 ≤ e ∧ e ≤ 50) (h : DayNumber ⟨y, m, k⟩ d) : ¬ EasterSunday y' (d - e) := by
  intro hs
  obtain rfl := inYear_unique (inYear_of h) (InYear.of_easter (by omega) hs)
  rw [easterSunday_iff] at hs
  have h1 := easter_in_year y
  obtain ⟨v, e'⟩ := (dayNumber_iff _ _).1 h
  have h2 := jan1_succ y
  have h3 := v.2.2.1
  have h4 := v.2.2.2
  rcases hm with ⟨rfl, hk⟩ | rfl <;> unfold dayOf daysBeforeMonth at e' <;> simp at e' h3 <;>
    split at h2 <;> simp_all <;> omega

theorem open_of {x : Exchange} {H : Int → Int → Prop} {cl : List (Int × Int × Int)} {d : Int}
    (h : FollowsBook x H cl) (h0 : 0 ≤ d) (h1 : d ≤ 84370) (hw : Weekday d) (hc : ¬ OnDates cl d)
    (hh : ∀ y, ¬ H y d) : OpenOn x d :=
  fun z start stop b hb hs h2 h3 => (h z start stop b hb hs d h2 h3 h0 h1).2 ⟨hw, hc, hh⟩

theorem closed_of {x : Exchange} {H : Int → Int → Prop} {cl : List (Int × Int × Int)} {d y : Int}
    (h : FollowsBook x H cl) (h0 : 0 ≤ d) (h1 : d ≤ 84370) (hh : H y d) : ClosedOn x d :=
  fun z start stop b hb hs h2 h3 hm => ((h z start stop b hb hs d h2 h3 h0 h1).1 hm).2.2 y hh

theorem weekday_5 (d : Int) : Weekday d ↔ weekday d ≤ 4 := by
  unfold Weekday
  simp only [weekday_iff]
  constructor
  · rintro ⟨w, _, _, rfl⟩; assumption
  · intro h
    exact ⟨weekday d, by unfold weekday; omega, h, rfl⟩

theorem in_window {y m k d : Int} (hy : 1970 ≤ y ∧ y ≤ 2200) (h : DayNumber ⟨y, m, k⟩ d) :
    0 ≤ d ∧ d ≤ 84370 := by
  have h1 := (ge_year h 1970).2 hy.1
  have h2 := (le_year h 2200).2 hy.2
  rw [show dayOf 1970 1 1 = 0 by decide] at h1
  rw [show dayOf 2200 12 31 = 84370 by decide] at h2
  exact ⟨h1, h2⟩

theorem not_onDates {l : List (Int × Int × Int)} {y m k d : Int} (h : DayNumber ⟨y, m, k⟩ d)
    (hl : ∀ e ∈ l, ¬ (e.2.1 = m ∧ e.2.2 = k)) : ¬ OnDates l d := by
  rintro ⟨e, he, hd⟩
  have := dn_unique h hd
  exact hl e he ⟨this.2.1.symm, this.2.2.symm⟩

/-- The London holidays from December 25 to 28. -/
theorem london_december {y k d y' : Int} (h : DayNumber ⟨y, 12, k⟩ d)
    (hh : LondonHoliday y' d) : k = 25 ∨ k = 26 ∨ (k = 27 ∧ (weekday d = 0 ∨ weekday d = 1)) ∨
      (k = 28 ∧ (weekday d = 0 ∨ weekday d = 1)) := by
  rcases hh with hh | hh | hh | hh | hh | hh | hh | hh | hh | hh
  · exfalso
    rcases hh with ⟨hh, _⟩ | ⟨_, hh | hh⟩
    · have := dn_unique h hh; omega
    · have := dn_unique h ((dn_shift (k' := 2) (by decide) (by decide) y' d).1 hh); omega
    · have := dn_unique h ((dn_shift (k' := 3) (by decide) (by decide) y' d).1 hh); omega
  · exact absurd hh (not_easter_december (e := -2) (.inr rfl) (by decide) h)
  · exact absurd hh (not_easter_december (e := 1) (.inr rfl) (by decide) h)
  · obtain ⟨_, _, j, hj, _⟩ := hh
    have := dn_unique h hj; omega
  · obtain ⟨_, _, j, hj, _⟩ := hh
    have := dn_unique h hj; omega
  · obtain ⟨j, hj, _⟩ := hh
    have := dn_unique h hj; omega
  · have := dn_unique h hh; omega
  · have := dn_unique h hh; omega
  · have := dn_unique h hh.1
    have := ((made_up (k := 25) (k' := 27) (by decide) (by decide) (by decide) _ _).2 hh).2
    simp [weekday_iff] at this
    omega
  · have := dn_unique h hh.1
    have := ((made_up (k := 26) (k' := 28) (by decide) (by decide) (by decide) _ _).2 hh).2
    simp [weekday_iff] at this
    omega

/-- C48.  XLON: in every year of the window, exactly two of the Mondays to Fridays from December 25 to 28
are closed. -/
theorem c48_london_christmas (y : Int) (hy : 1970 ≤ y ∧ y ≤ 2200) :
    ∃ i j, 25 ≤ i ∧ i < j ∧ j ≤ 28 ∧
      (∀ k, k = i ∨ k = j → ∃ d, DayNumber ⟨y, 12, k⟩ d ∧ Weekday d ∧ ClosedOn Xlon.exchange d) ∧
      ∀ k d, 25 ≤ k → k ≤ 28 → DayNumber ⟨y, 12, k⟩ d → Weekday d → k ≠ i → k ≠ j →
        OpenOn Xlon.exchange d := by
  have a25 : everyYear 12 25 = true := by decide
  have a26 : everyYear 12 26 = true := by decide
  have a27 : everyYear 12 27 = true := by decide
  have a28 : everyYear 12 28 = true := by decide
  have e26 : dayOf y 12 26 = dayOf y 12 25 + 1 := by unfold dayOf; omega
  have e27 : dayOf y 12 27 = dayOf y 12 25 + 2 := by unfold dayOf; omega
  have e28 : dayOf y 12 28 = dayOf y 12 25 + 3 := by unfold dayOf; omega
  have d25 := (dn a25 y _).2 rfl
  have d26 := (dn a26 y _).2 rfl
  have d27 := (dn a27 y _).2 rfl
  have d28 := (dn a28 y _).2 rfl
  have closed : ∀ {k d : Int}, DayNumber ⟨y, 12, k⟩ d → LondonHoliday y d → ClosedOn Xlon.exchange d :=
    fun h hh => closed_of c55_london (in_window hy h).1 (in_window hy h).2 hh
  have c25 := closed d25 (.inr (.inr (.inr (.inr (.inr (.inr (.inl d25)))))))
  have c26 := closed d26 (.inr (.inr (.inr (.inr (.inr (.inr (.inr (.inl d26))))))))
  have c27 (hw : weekday (dayOf y 12 25) = 5 ∨ weekday (dayOf y 12 25) = 6) :=
    closed d27 (.inr (.inr (.inr (.inr (.inr (.inr (.inr (.inr (.inl
      ⟨d27, _, d25, by simpa only [weekday_iff] using hw⟩)))))))))
  have c28 (hw : weekday (dayOf y 12 26) = 5 ∨ weekday (dayOf y 12 26) = 6) :=
    closed d28 (.inr (.inr (.inr (.inr (.inr (.inr (.inr (.inr (.inr
      ⟨d28, _, d26, by simpa only [weekday_iff] using hw⟩)))))))))
  have hopen : ∀ k d, 25 ≤ k → k ≤ 28 → DayNumber ⟨y, 12, k⟩ d → Weekday d →
      ¬ (k = 25 ∨ k = 26 ∨ (k = 27 ∧ (weekday d = 0 ∨ weekday d = 1)) ∨
      (k = 28 ∧ (weekday d = 0 ∨ weekday d = 1))) → OpenOn Xlon.exchange d := by
    intro k d h1 h2 h hw hn
    refine open_of c55_london (in_window hy h).1 (in_window hy h).2 hw (not_onDates h ?_)
      (fun y' hh => hn (london_december h hh))
    have hl : ∀ e ∈ londonClosures, ¬ (e.2.1 = 12 ∧ 25 ≤ e.2.2 ∧ e.2.2 ≤ 28) := by decide
    intro e he hh
    exact hl e he ⟨hh.1, by omega, by omega⟩
  have key : ∀ i j : Int,
      (∀ k, 25 ≤ k → k ≤ 28 → k ≠ i → k ≠ j → weekday (dayOf y 12 25 + (k - 25)) ≤ 4 →
        ¬ (k = 25 ∨ k = 26 ∨ (k = 27 ∧ (weekday (dayOf y 12 25 + (k - 25)) = 0 ∨
            weekday (dayOf y 12 25 + (k - 25)) = 1)) ∨
          (k = 28 ∧ (weekday (dayOf y 12 25 + (k - 25)) = 0 ∨
            weekday (dayOf y 12 25 + (k - 25)) = 1)))) →
      ∀ k d, 25 ≤ k → k ≤ 28 → DayNumber ⟨y, 12, k⟩ d → Weekday d → k ≠ i → k ≠ j →
        OpenOn Xlon.exchange d := by
    intro i j h5 k d k1 k2 hd hw n1 n2
    refine hopen k d k1 k2 hd hw ?_
    have he : d = dayOf y 12 25 + (k - 25) := by
      have := ((dayNumber_iff _ _).1 hd).2
      have e1 := dayOf_one y 12 k
      have e2 := dayOf_one y 12 25
      simp only at this
      omega
    subst he
    exact h5 k k1 k2 n1 n2 ((weekday_5 _).1 hw)
  have hwr : 0 ≤ weekday (dayOf y 12 25) ∧ weekday (dayOf y 12 25) ≤ 6 := by unfold weekday; omega
  have w26 : weekday (dayOf y 12 26) = (weekday (dayOf y 12 25) + 1) % 7 := by
    rw [e26]; unfold weekday; omega
  have w27 : weekday (dayOf y 12 27) = (weekday (dayOf y 12 25) + 2) % 7 := by
    rw [e27]; unfold weekday; omega
  have w28 : weekday (dayOf y 12 28) = (weekday (dayOf y 12 25) + 3) % 7 := by
    rw [e28]; unfold weekday; omega
  have hc : weekday (dayOf y 12 25) ≤ 3 ∨ weekday (dayOf y 12 25) = 4 ∨ weekday (dayOf y 12 25) = 5 ∨
    weekday (dayOf y 12 25) = 6 := by omega
  rcases hc with hc | hc | hc | hc
  · refine ⟨25, 26, by decide, by decide, by decide, ?_, key 25 26 ?_⟩
    · rintro k (rfl | rfl)
      · exact ⟨_, d25, (weekday_5 _).2 (by omega), c25⟩
      · exact ⟨_, d26, (weekday_5 _).2 (by omega), c26⟩
    · intro k k1 k2 n1 n2; unfold weekday at *; omega
  · refine ⟨25, 28, by decide, by decide, by decide, ?_, key 25 28 ?_⟩
    · rintro k (rfl | rfl)
      · exact ⟨_, d25, (weekday_5 _).2 (by omega), c25⟩
      · exact ⟨_, d28, (weekday_5 _).2 (by omega), c28 (by omega)⟩
    · intro k k1 k2 n1 n2; unfold weekday at *; omega
  · refine ⟨27, 28, by decide, by decide, by decide, ?_, key 27 28 ?_⟩
    · rintro k (rfl | rfl)
      · exact ⟨_, d27, (weekday_5 _).2 (by omega), c27 (by omega)⟩
      · exact ⟨_, d28, (weekday_5 _).2 (by omega), c28 (by omega)⟩
    · intro k k1 k2 n1 n2; unfold weekday at *; omega
  · refine ⟨26, 27, by decide, by decide, by decide, ?_, key 26 27 ?_⟩
    · rintro k (rfl | rfl)
      · exact ⟨_, d26, (weekday_5 _).2 (by omega), c26⟩
      · exact ⟨_, d27, (weekday_5 _).2 (by omega), c27 (by omega)⟩
    · intro k k1 k2 n1 n2; unfold weekday at *; omega

/-- C48.  XLON: New Year closes the first Monday to Friday on or after January 1, and only that one of
January 1 to 4. -/
theorem c48_london_new_year (y : Int) (hy : 1970 ≤ y ∧ y ≤ 2200) {j d : Int}
    (hj : DayNumber ⟨y, 1, 1⟩ j) (hd : j ≤ d ∧ d ≤ j + 3) (hw : Weekday d) :
    ((∀ e, j ≤ e → e < d → ¬ Weekday e) → ClosedOn Xlon.exchange d) ∧
    ((∃ e, j ≤ e ∧ e < d ∧ Weekday e) → OpenOn Xlon.exchange d) := by
  have a1 : everyYear 1 1 = true := by decide
  have hk : DayNumber ⟨y, 1, 1 + (d - j)⟩ d := by
    rw [dayNumber_iff]
    rw [dn a1] at hj
    refine ⟨⟨by simp, by simp, ?_, ?_⟩, ?_⟩
    · simp only; omega
    · simp [monthLength]; omega
    · have e1 := dayOf_one y 1 (1 + (d - j))
      simp only
      omega
  have hb := in_window hy hk
  constructor
  · intro h
    refine closed_of (y := y) c55_london hb.1 hb.2 (.inl ?_)
    rw [weekday_5] at hw
    simp only [WeekendToMonday, weekday_iff]
    have g0 := h j; have g1 := h (j + 1); have g2 := h (j + 2)
    simp only [weekday_5] at g0 g1 g2
    by_cases e0 : d = j
    · subst e0; left; exact ⟨hj, by omega, by omega⟩
    · right
      by_cases e1 : d = j + 1
      · subst e1
        refine ⟨?_, .inl (by simpa using hj)⟩
        unfold weekday at *; omega
      · by_cases e2 : d = j + 2
        · subst e2
          refine ⟨?_, .inr (by simpa using hj)⟩
          unfold weekday at *; omega
        · exfalso; unfold weekday at *; omega
  · rintro ⟨e, h1, h2, h3⟩
    refine open_of c55_london hb.1 hb.2 hw (not_onDates hk ?_) ?_
    · have hl : ∀ e ∈ londonClosures, ¬ e.2.1 = 1 := by decide
      exact fun e he hh => hl e he hh.1
    · intro y' hh
      rw [weekday_5] at h3 hw
      rcases hh with hh | hh | hh | hh | hh | hh | hh | hh | hh | hh
      · simp only [WeekendToMonday, weekday_iff, dn a1] at hh
        rw [dn a1] at hj
        rcases hh with ⟨hh, _⟩ | ⟨hh', hh | hh⟩
        · have := dn_unique hk ((dn a1 y' d).2 hh); omega
        · have := dn_unique hk ((dn_shift (k' := 2) a1 (by decide) y' d).1 ((dn a1 _ _).2 hh))
          have : e = j := by omega
          subst this
          unfold weekday at *; omega
        · have := dn_unique hk ((dn_shift (k' := 3) a1 (by decide) y' d).1 ((dn a1 _ _).2 hh))
          have : e = j ∨ e = j + 1 := by omega
          unfold weekday at *; omega
      · exact absurd hh (not_easter_december (e := -2) (.inl ⟨rfl, by omega⟩) (by decide) hk)
      · exact absurd hh (not_easter_december (e := 1) (.inl ⟨rfl, by omega⟩) (by decide) hk)
      · obtain ⟨_, _, i, hi, _⟩ := hh
        have := dn_unique hk hi; omega
      · obtain ⟨_, _, i, hi, _⟩ := hh
        have := dn_unique hk hi; omega
      · obtain ⟨i, hi, _⟩ := hh
        have := dn_unique hk hi; omega
      · have := dn_unique hk hh; omega
      · have := dn_unique hk hh; omega
      · have := dn_unique hk hh.1; omega
      · have := dn_unique hk hh.1; omega

/-- C48.  XAMS: Christmas and Boxing day are not made up; of the Mondays to Fridays from December 25 to
30, exactly the 25th and the 26th are closed. -/
theorem c48_amsterdam_christmas (y : Int) (hy : 1970 ≤ y ∧ y ≤ 2200) {k d : Int}
    (hk : 25 ≤ k ∧ k ≤ 30) (h : DayNumber ⟨y, 12, k⟩ d) (hw : Weekday d) :
    (k ≤ 26 → ClosedOn Xams.exchange d) ∧ (27 ≤ k → OpenOn Xams.exchange d) := by
  have hb := in_window hy h
  constructor
  · intro hk'
    have : k = 25 ∨ k = 26 := by omega
    rcases this with rfl | rfl
    · exact closed_of (y := y) c55_amsterdam hb.1 hb.2
        (.inr (.inr (.inr (.inr (.inr (.inr (.inr (.inl h))))))))
    · exact closed_of (y := y) c55_amsterdam hb.1 hb.2
        (.inr (.inr (.inr (.inr (.inr (.inr (.inr (.inr (.inl h)))))))))
  · intro hk'
    refine open_of c55_amsterdam hb.1 hb.2 hw (not_onDates h (by simp)) ?_
    intro y' hh
    rcases hh with hh | hh | hh | ⟨_, hh⟩ | ⟨_, hh⟩ | ⟨_, hh⟩ | hh | hh | hh | ⟨_, hh⟩
    · have := dn_unique h hh; omega
    · exact absurd hh (not_easter_december (e := -2) (.inr rfl) (by decide) h)
    · exact absurd hh (not_easter_december (e := 1) (.inr rfl) (by decide) h)
    · exact absurd hh (not_easter_december (e := 39) (.inr rfl) (by decide) h)
    · exact absurd hh (not_easter_december (e := 50) (.inr rfl) (by decide) h)
    · have := dn_unique h hh; omega
    · have := dn_unique h hh; omega
    · have := dn_unique h hh; omega
    · have := dn_unique h hh; omega
    · have := dn_unique h hh; omega

/-- Example: Christmas 2021 was a Saturday; London closed on Monday 27 and Tuesday 28, Amsterdam traded
on both, and both calendars can be built for that year. -/
example : Weekday (dayOf 2021 12 27) ∧ ClosedOn Xlon.exchange (dayOf 2021 12 27) ∧
    OpenOn Xams.exchange (dayOf 2021 12 27) ∧
    (∃ b, build (Xlon.exchange.config Xlon.zone) (dayOf 2021 1 1 * DAY) (dayOf 2021 12 31 * DAY) =
      .ok b) ∧
    ∃ b, build (Xams.exchange.config Xams.zone) (dayOf 2021 1 1 * DAY) (dayOf 2021 12 31 * DAY) =
      .ok b := by
  have hd : DayNumber ⟨2021, 12, 27⟩ (dayOf 2021 12 27) := (dn (by decide) _ _).2 rfl
  have hw : Weekday (dayOf 2021 12 27) := (weekday_5 _).2 (by decide)
  refine ⟨hw, ?_, (c48_amsterdam_christmas 2021 (by decide) (by decide) hd hw).2 (by decide), ?_, ?_⟩
  · refine closed_of (y := 2021) c55_london (by decide) (by decide)
      (.inr (.inr (.inr (.inr (.inr (.inr (.inr (.inr (.inl ⟨hd, dayOf 2021 12 25, (dn (by decide) _ _).2 rfl, ?_⟩)))))))))
    simp only [weekday_iff]; decide
  · obtain ⟨b, hb, _⟩ := (c54_xlon_zone (dayOf 2021 1 1 * DAY) (dayOf 2021 12 31 * DAY) (by decide)
      (Int.dvd_mul_left _ _)).succeeds (by simp)
      ⟨dayOf 2021 10 13, by decide, by decide, trades_of xlon_check (by decide +kernel)⟩
    exact ⟨b, hb⟩
  · obtain ⟨b, hb, _⟩ := (c54_xams_zone (dayOf 2021 1 1 * DAY) (dayOf 2021 12 31 * DAY) (by decide)
      (Int.dvd_mul_left _ _)).succeeds (by simp)
      ⟨dayOf 2021 10 13, by decide, by decide, trades_of xams_check (by decide +kernel)⟩
    exact ⟨b, hb⟩

end TC.Props
