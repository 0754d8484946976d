import Verif.Lemmas.HolidayCache
import Verif.Props.Build

/-!
# Properties of holiday rules: C43, C45 (observances), C49, C50, C53
-/

namespace TC.Props
open TC TC.Spec

/-! ## C43: holiday rules yield exactly the observed dates -/

/-- C43: for a rule pandas accepts whose holidays come from the same or an adjacent year, the dates
yielded for any window are exactly the rule's holidays that lie in the window: none is missed at
either end. -/
theorem c43_rule_dates {r : Rule} (hg : GoodRule r) (hn : Near r) (hy : r.year = none)
    (start stop u : Int) :
    u ∈ r.dates start stop ↔ ∃ d, u = d * DAY ∧ IsHoliday r d ∧ start ≤ u ∧ u ≤ stop :=
  mem_dates hg hn hy start stop u

/-- C43: the same for a holiday calendar of any list of rules, single-date rules (`year=`)
included; the dates come in increasing order. -/
theorem c43_calendar_dates {rules : List Rule} (hg : ∀ r ∈ rules, GoodRule r)
    (hn : ∀ r ∈ rules, Near r) (start stop : Int) :
    (∀ u, u ∈ holidayCalendar rules start stop ↔
      start ≤ u ∧ u ≤ stop ∧ ∃ r ∈ rules, ∃ d, u = d * DAY ∧ IsHoliday r d) ∧
    (holidayCalendar rules start stop).Pairwise (· ≤ ·) :=
  ⟨mem_holidayCalendar hg hn start stop, holidayCalendar_sorted rules start stop⟩

/-- C43: the hypotheses hold for every rule that passes simple checks on its data: a date existing
in every year, proper offsets, and any observance of the repository or offsets that move by less
than a year. -/
theorem c43_applies {r : Rule} (h : goodRuleB r = true) (hn : nearB r = true) :
    GoodRule r ∧ Near r :=
  ⟨goodRule_of h, near_of (goodRule_of h) hn⟩

/-- New Year's Day of 2012 was a Sunday: with `sunday_to_monday` the window of a single day, Monday
2012-01-02, contains it; so does the window of the last day of 2010 for a New Year's Day observed on
the Friday before. -/
example :
    goodRuleB (newYearsDay (observance := some .sundayToMonday)) = true ∧
    nearB (newYearsDay (observance := some .sundayToMonday)) = true ∧
    (newYearsDay (observance := some .sundayToMonday)).dates (dayOf 2012 1 2 * DAY)
      (dayOf 2012 1 2 * DAY) = [dayOf 2012 1 2 * DAY] ∧
    (newYearsDay (observance := some .previousFriday)).dates (dayOf 2010 12 31 * DAY)
      (dayOf 2010 12 31 * DAY) = [dayOf 2010 12 31 * DAY] := by
  decide +kernel

/-- A rule with a year: yielded whatever the window by `Holiday.dates`, sliced by the calendar. -/
example : holidayCalendar [{ year := some 2020, month := 7, day := 23 }] 0 (10000 * DAY) = [] ∧
    holidayCalendar [{ year := some 2020, month := 7, day := 23 }] 0 (84370 * DAY) =
      [dayOf 2020 7 23 * DAY] := by
  decide +kernel

/-! ## C53: the cache of a holiday calendar is transparent -/

/-- The answers of one holiday-calendar instance to a sequence of windows. -/
def askAll (rules : List Rule) : HolidayCache → List (Int × Int) → List (List Int)
  | _, [] => []
  | c, w :: ws => (holidaysCached rules c w.1 w.2).1 ::
      askAll rules (holidaysCached rules c w.1 w.2).2 ws

/-- C53: through any history of queries on one instance, every answer is the one a fresh instance
gives: the cache never shows. -/
theorem c53_cache_transparent {rules : List Rule}
    (h : ∀ r ∈ rules, GoodRule r ∧ StrictlyNear r ∨
      ∃ x z, r.startDate = some x ∧ r.endDate = some z) (windows : List (Int × Int)) :
    askAll rules none windows = windows.map fun w => holidayCalendar rules w.1 w.2 := by
  suffices ∀ (ws : List (Int × Int)) (c : HolidayCache), HolidayCacheOk rules c →
      askAll rules c ws = ws.map fun w => holidayCalendar rules w.1 w.2 from
    this windows none trivial
  intro ws
  induction ws with
  | nil => intro c _; rfl
  | cons w ws ih =>
    intro c hc
    have := holidaysCached_step h hc w.1 w.2
    simp only [askAll, List.map_cons]
    rw [this.1, ih _ this.2]

/-- Asking for 2000-2020, then for the single day 2012-01-02, then for a larger window. -/
example :
    askAll [newYearsDay (observance := some .sundayToMonday)] none
      [(dayOf 2010 1 1 * DAY, dayOf 2014 1 1 * DAY), (dayOf 2012 1 2 * DAY, dayOf 2012 1 2 * DAY),
        (dayOf 2012 1 1 * DAY, dayOf 2016 1 1 * DAY)] =
    [[dayOf 2010 1 1 * DAY, dayOf 2011 1 1 * DAY, dayOf 2012 1 2 * DAY, dayOf 2013 1 1 * DAY,
        dayOf 2014 1 1 * DAY], [dayOf 2012 1 2 * DAY],
      [dayOf 2012 1 2 * DAY, dayOf 2013 1 1 * DAY, dayOf 2014 1 1 * DAY, dayOf 2015 1 1 * DAY,
        dayOf 2016 1 1 * DAY]] := by
  decide +kernel

/-! ## C45: observances -/

/-- C45: `nearest_workday` yields a Monday-Friday, moves Saturdays back and Sundays forward by one
day and leaves other days alone. -/
theorem c45_nearest_workday (u : Int) :
    (∀ w, IsWeekday (nearestWorkday u) w → w ≤ 4) ∧
    (IsWeekday u 5 → nearestWorkday u = u - 1) ∧ (IsWeekday u 6 → nearestWorkday u = u + 1) ∧
    ((¬ IsWeekday u 5 ∧ ¬ IsWeekday u 6) → nearestWorkday u = u) := by
  simp only [weekday_iff]
  unfold nearestWorkday weekday
  refine ⟨?_, ?_, ?_, ?_⟩
  · intro w
    repeat' split
    all_goals omega
  all_goals
    repeat' split
    all_goals omega

/-- C45: `sunday_to_monday` moves Sundays to the next day and nothing else. -/
theorem c45_sunday_to_monday (u : Int) :
    (IsWeekday u 6 → sundayToMonday u = u + 1) ∧ (¬ IsWeekday u 6 → sundayToMonday u = u) := by
  simp only [weekday_iff]
  unfold sundayToMonday
  constructor
  · intro h; rw [if_pos h]
  · intro h; rw [if_neg h]

/-- C45: `previous_workday` yields the last Monday-Friday before the date. -/
theorem c45_previous_workday (u : Int) :
    previousWorkday u < u ∧ (∀ w, IsWeekday (previousWorkday u) w → w ≤ 4) ∧
    ∀ x, x < u → (∃ w, IsWeekday x w ∧ w ≤ 4) → x ≤ previousWorkday u := by
  simp only [weekday_iff, previousWorkday_eq]
  unfold weekday
  refine ⟨?_, ?_, ?_⟩
  · repeat' split
    all_goals omega
  · intro w
    repeat' split
    all_goals omega
  · rintro x hx ⟨w, hw, hw4⟩
    repeat' split
    all_goals omega

/-- C45: every observance function contributes exactly the dates of its documented table. -/
theorem c45_observances (o : Obs) (ho : o ≠ .followingTuesdayEveryFourYears) (u d : Int) :
    d ∈ o.apply u ↔ Contributes o u d :=
  obs_iff o ho u d

/-- C45: `vectorized_sunday_to_monday` is `sunday_to_monday` pointwise, on the calendar day of every
entry, for every index. -/
theorem c45_vectorized (dtix : List Int) :
    (vectorizedSundayToMonday dtix).length = dtix.length ∧
    ∀ i (h : i < dtix.length) (h' : i < (vectorizedSundayToMonday dtix).length),
      (IsWeekday (dtix[i] / DAY) 6 → (vectorizedSundayToMonday dtix)[i] = dtix[i] + DAY) ∧
      (¬ IsWeekday (dtix[i] / DAY) 6 → (vectorizedSundayToMonday dtix)[i] = dtix[i]) := by
  refine ⟨by simp [vectorizedSundayToMonday], ?_⟩
  intro i h h'
  have e : (vectorizedSundayToMonday dtix)[i] =
      if weekday (dtix[i] / DAY) == 6 then dtix[i] + DAY else dtix[i] := by
    simp [vectorizedSundayToMonday]
  rw [e]
  simp only [weekday_iff, beq_iff_eq]
  constructor
  · intro hh; rw [if_pos hh]
  · intro hh; rw [if_neg hh]

/-- 2012-01-01 was a Sunday, 2011-12-31 a Saturday. -/
example : vectorizedSundayToMonday [dayOf 2011 12 31 * DAY, dayOf 2012 1 1 * DAY + 5] =
    [dayOf 2011 12 31 * DAY, dayOf 2012 1 2 * DAY + 5] ∧
    nearestWorkday (dayOf 2011 12 31) = dayOf 2011 12 30 ∧
    previousWorkday (dayOf 2012 1 2) = dayOf 2011 12 30 := by
  decide +kernel

/-! ## C49: Easter-based holidays -/

/-- C49: `dateutil.easter` computes, for every year, the one Easter Sunday: the first Sunday after
the ecclesiastical full moon; it lies between March 22 and April 25. -/
theorem c49_easter (y : Int) :
    EasterSunday y (easter y) ∧ (∀ d, EasterSunday y d → d = easter y) ∧ IsWeekday (easter y) 6 ∧
    ∃ a b, DayNumber ⟨y, 3, 22⟩ a ∧ DayNumber ⟨y, 4, 25⟩ b ∧ a ≤ easter y ∧ easter y ≤ b := by
  refine ⟨(easterSunday_iff y _).2 rfl, fun d h => (easterSunday_iff y d).1 h,
    (weekday_iff _ _).2 (easter_sunday y), dayOf y 3 22, dayOf y 4 25, ?_, ?_, ?_, ?_⟩
  · rw [dayNumber_iff]; exact ⟨march_valid y 22 (by omega), rfl⟩
  · rw [dayNumber_iff]
    refine ⟨⟨by simp, by simp, by simp, ?_⟩, rfl⟩
    simp [monthLength]
  · have := easter_eq y
    have := easterP_range y
    have := march_day y 22
    omega
  · have := easter_eq y
    have := easterP_range y
    have : dayOf y 4 25 = dayOf y 3 28 + 28 := by
      unfold dayOf daysBeforeMonth
      simp
      omega
    omega

/-- What a rule "January 1, offset `[Easter(), Day(k)]`" means. -/
theorem easter_rule {r : Rule} {k : Int} (hm : r.month = 1) (hd : r.day = 1) (hy : r.year = none)
    (ho : r.observance = none) (hoff : r.offsets = [.easter, .days k]) (hw : r.daysOfWeek = none)
    (hk : -79 ≤ k) (hk' : k ≤ 250) (start stop u : Int) :
    u ∈ r.dates start stop ↔ ∃ d, u = d * DAY ∧ (∃ y, EasterSunday y (d - k)) ∧
      (∀ s, r.startDate = some s → s ≤ d) ∧ (∀ e, r.endDate = some e → d ≤ e) ∧
      start ≤ u ∧ u ≤ stop := by
  have hg : GoodRule r := by
    refine ⟨?_, ?_, ?_⟩
    · intro y; rw [hm, hd]
      refine ⟨by simp, by simp, by simp, ?_⟩
      simp [monthLength]
    · rw [hoff]; intro o ho; simp at ho; rcases ho with rfl | rfl <;> trivial
    · intro ws h; rw [hw] at h; simp at h
  have hn : Near r := near_of hg (by
    unfold nearB strictlyNearB
    rw [ho, hoff]
    simp [offsetsNearB, spreads, spread]
    omega)
  have hkept : ∀ y d, KeptOn r y d ↔ EasterSunday y (d - k) := by
    intro y d
    rw [← ofYear_iff hg, easterSunday_iff]
    unfold Rule.ofYear Rule.applyRule
    rw [List.mem_filter, hm, hd]
    simp only [ho, hoff, Rule.allowsDay, hw, and_true, List.foldl_cons, List.foldl_nil,
      List.mem_singleton, Offset.apply]
    have hy1 : yearOf (dayOf y 1 1) = y := (toDate_monthStart (by omega) (by omega)).1
    have hlt : dayOf y 1 1 < easter y := by
      have := easter_in_year y
      have : dayOf y 1 1 = jan1 y := by unfold dayOf daysBeforeMonth; simp
      omega
    unfold nextAnnual
    rw [hy1, if_pos hlt]
    omega
  rw [mem_dates hg hn hy]
  unfold IsHoliday
  rw [hy]
  simp only [hkept]
  constructor
  · rintro ⟨d, h1, ⟨h2, h3, h4⟩, h5, h6⟩; exact ⟨d, h1, h2, h3, h4, h5, h6⟩
  · rintro ⟨d, h1, h2, h3, h4, h5, h6⟩; exact ⟨d, h1, ⟨h2, h3, h4⟩, h5, h6⟩

theorem easter_shift_weekday {y d k w : Int} (h : EasterSunday y (d - k)) (hw : 0 ≤ w ∧ w ≤ 6)
    (hk : (6 + k - w) % 7 = 0) : IsWeekday d w := by
  have := (weekday_iff _ _).1 h.choose_spec.2.1
  rw [weekday_iff]
  unfold weekday at *
  omega

/-- C49: the dates of `rule` in any window are those `k` days after an Easter Sunday (within the
rule's bounds), and they fall on weekday `w`. -/
def EasterBased (rule : Rule) (k w : Int) : Prop :=
  (∀ start stop u, u ∈ rule.dates start stop ↔ ∃ d, u = d * DAY ∧ (∃ y, EasterSunday y (d - k)) ∧
    (∀ s, rule.startDate = some s → s ≤ d) ∧ (∀ e, rule.endDate = some e → d ≤ e) ∧
    start ≤ u ∧ u ≤ stop) ∧
  ∀ d y, EasterSunday y (d - k) → IsWeekday d w

/-- C49: Holy Wednesday is the Wednesday four days before Easter. -/
theorem c49_holy_wednesday (s e : Option Int) : EasterBased (holyWednesday s e) (-4) 2 :=
  ⟨easter_rule rfl rfl rfl rfl rfl rfl (by omega) (by omega),
    fun _ _ h => easter_shift_weekday h (by omega) (by omega)⟩

/-- C49: Maundy Thursday is the Thursday three days before Easter. -/
theorem c49_maundy_thursday (s e : Option Int) : EasterBased (maundyThursday s e) (-3) 3 :=
  ⟨easter_rule rfl rfl rfl rfl rfl rfl (by omega) (by omega),
    fun _ _ h => easter_shift_weekday h (by omega) (by omega)⟩

/-- C49: Good Friday is the Friday two days before Easter. -/
theorem c49_good_friday : EasterBased goodFriday (-2) 4 :=
  ⟨easter_rule rfl rfl rfl rfl rfl rfl (by omega) (by omega),
    fun _ _ h => easter_shift_weekday h (by omega) (by omega)⟩

/-- C49: Easter Monday is the Monday after Easter. -/
theorem c49_easter_monday : EasterBased easterMonday 1 0 :=
  ⟨easter_rule rfl rfl rfl rfl rfl rfl (by omega) (by omega),
    fun _ _ h => easter_shift_weekday h (by omega) (by omega)⟩

/-- C49: Ascension Day is the Thursday 39 days after Easter. -/
theorem c49_ascension_day (s e : Option Int) : EasterBased (ascensionDay s e) 39 3 :=
  ⟨easter_rule rfl rfl rfl rfl rfl rfl (by omega) (by omega),
    fun _ _ h => easter_shift_weekday h (by omega) (by omega)⟩

/-- C49: Whit Monday is the Monday 50 days after Easter. -/
theorem c49_whit_monday (s e : Option Int) : EasterBased (whitMonday s e) 50 0 :=
  ⟨easter_rule rfl rfl rfl rfl rfl rfl (by omega) (by omega),
    fun _ _ h => easter_shift_weekday h (by omega) (by omega)⟩

/-- C49: Corpus Christi is the Thursday 60 days after Easter. -/
theorem c49_corpus_christi (s e : Option Int) : EasterBased (corpusChristi s e) 60 3 :=
  ⟨easter_rule rfl rfl rfl rfl rfl rfl (by omega) (by omega),
    fun _ _ h => easter_shift_weekday h (by omega) (by omega)⟩

/-- Easter 2000, the earliest and the latest Easter of the twentieth to twenty-second century
(1943-04-25 and 2008-03-23 fall in the range), 1818-03-22 the earliest possible. -/
example : easter 2000 = dayOf 2000 4 23 ∧ easter 1943 = dayOf 1943 4 25 ∧
    easter 1818 = dayOf 1818 3 22 ∧
    goodFriday.dates (dayOf 2000 1 1 * DAY) (dayOf 2001 12 31 * DAY) =
      [dayOf 2000 4 21 * DAY, dayOf 2001 4 13 * DAY] := by
  decide +kernel

/-! ## C50: regular holidays and the window pandas evaluates them over -/

/-- C50: a calendar built from holiday rules has, inside 1970-01-01 .. 2200-12-31, no session on a
holiday of any rule, and outside that window its sessions are all days enabled in the week mask
that are not ad-hoc holidays, whatever the rules say. -/
theorem c50_window {cfg : Config} {start stop : Int} {b : Built} {rules : List Rule}
    (hb : build cfg start stop = .ok b) (hm : DAY ∣ start)
    (hcal : cfg.regularHolidays = some (holidayCalendar rules))
    (hg : ∀ r ∈ rules, GoodRule r) (hn : ∀ r ∈ rules, Near r) :
    ∀ d, start ≤ d * DAY → d * DAY ≤ stop →
      (0 ≤ d → d ≤ 84370 → (d * DAY ∈ b.cal.sessions ↔
        (∃ w, IsWeekday d w ∧ cfg.weekmask w = true) ∧
        (∀ x ∈ cfg.adhocHolidays, x / DAY ≠ d) ∧ ∀ r ∈ rules, ¬ IsHoliday r d)) ∧
      (d < 0 ∨ 84370 < d → (d * DAY ∈ b.cal.sessions ↔
        (∃ w, IsWeekday d w ∧ cfg.weekmask w = true) ∧ ∀ x ∈ cfg.adhocHolidays, x / DAY ≠ d)) := by
  intro d h1 h2
  have hs := (c33_sessions hb hm).2 (d * DAY)
  have hmem := mem_holidayCalendar hg hn 0 (84370 * DAY)
  have hD : (0 : Int) < DAY := by simp only [DAY]; omega
  have hinj : ∀ d', d * DAY = d' * DAY ↔ d' = d := by
    intro d'; simp only [DAY]; omega
  have hdiv : ∀ d', d' * DAY / DAY = d' := by
    intro d'; simp only [DAY]; omega
  have hreg : (∀ cal, cfg.regularHolidays = some cal →
      ∀ x ∈ cal 0 (84370 * DAY), x / DAY ≠ d) ↔
      ((0 ≤ d ∧ d ≤ 84370) → ∀ r ∈ rules, ¬ IsHoliday r d) := by
    rw [hcal]
    simp only [Option.some.injEq, forall_eq']
    constructor
    · intro h hd r hr hh
      refine h (d * DAY) ((hmem _).2 ⟨?_, ?_, r, hr, d, rfl, hh⟩) (hdiv d)
      · simp only [DAY]; omega
      · simp only [DAY]; omega
    · intro h x hx hxd
      obtain ⟨k1, k2, r, hr, d', rfl, hh⟩ := (hmem x).1 hx
      rw [hdiv] at hxd
      subst hxd
      clear hs hm
      exact h ⟨by simp only [DAY] at k1; omega, by simp only [DAY] at k2; omega⟩ r hr hh
  replace hs : d * DAY ∈ b.cal.sessions ↔ start ≤ d * DAY ∧ d * DAY ≤ stop ∧
      (∃ w, IsWeekday d w ∧ cfg.weekmask w = true) ∧
      (∀ x ∈ cfg.adhocHolidays, x / DAY ≠ d) ∧
      ((0 ≤ d ∧ d ≤ 84370) → ∀ r ∈ rules, ¬ IsHoliday r d) := by
    rw [hs, ← hreg]
    constructor
    · rintro ⟨h1, h2, d', hd', h3⟩
      obtain rfl := (hinj d').1 hd'
      exact ⟨h1, h2, h3⟩
    · rintro ⟨h1, h2, h3⟩; exact ⟨h1, h2, d, rfl, h3⟩
  constructor
  · intro h3 h4
    rw [hs]
    exact ⟨fun ⟨_, _, ha, hb, hc⟩ => ⟨ha, hb, hc ⟨h3, h4⟩⟩,
      fun ⟨ha, hb, hc⟩ => ⟨h1, h2, ha, hb, fun _ => hc⟩⟩
  · intro h3
    rw [hs]
    exact ⟨fun ⟨_, _, ha, hb, _⟩ => ⟨ha, hb⟩,
      fun ⟨ha, hb⟩ => ⟨h1, h2, ha, hb, fun h => by omega⟩⟩

/-- The window: 2200-12-31 is day 84370. -/
example : dayOf 2200 12 31 = 84370 ∧ dayOf 1970 1 1 = 0 := by decide +kernel

end TC.Props
