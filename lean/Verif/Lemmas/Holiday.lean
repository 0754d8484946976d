import Verif.Lemmas.Civil
import Verif.Spec.Holiday
import Verif.Lemmas.Build

/-! # Holiday rules: the model's functions meet the specification -/

namespace TC
open Spec

theorem inYear_iff (d y : Int) : InYear d y ↔ yearOf d = y := by
  constructor
  · rintro ⟨m, k, hv, hd⟩
    have := (dayNumber_iff _ _).1 hd
    rw [← this.2]; exact yearOf_dayOf hv
  · intro h
    have hv := toDate_valid d
    have hd := dayOf_toDate d
    subst h
    exact ⟨monthOf d, dayOfMonth d, hv, (dayNumber_iff _ _).2 ⟨hv, hd⟩⟩

theorem weekday_range (d : Int) : 0 ≤ weekday d ∧ weekday d < 7 := by
  unfold weekday; omega

theorem weekday_cases (d : Int) : weekday d = 0 ∨ weekday d = 1 ∨ weekday d = 2 ∨ weekday d = 3 ∨
    weekday d = 4 ∨ weekday d = 5 ∨ weekday d = 6 := by
  have := weekday_range d; omega

theorem byTable_iff (t : WeekTable) (u d : Int) :
    ByTable t u d ↔ ∃ l, t[(weekday u).toNat]? = some l ∧ (d - u) ∈ l := by
  unfold ByTable
  have hr := weekday_range u
  constructor
  · rintro ⟨w, hw, l, hl, hd⟩
    have := (weekday_iff u w).1 hw
    have hw' : (weekday u).toNat = w := by omega
    rw [hw']; exact ⟨l, hl, hd⟩
  · rintro ⟨l, hl, hd⟩
    refine ⟨(weekday u).toNat, ?_, l, hl, hd⟩
    rw [weekday_iff]; omega

/-! ### Observances -/

theorem previousWorkday_eq (u : Int) : previousWorkday u =
    u - (if weekday u = 0 then 3 else if weekday u = 6 then 2 else 1) := by
  simp only [previousWorkday, backToWeekday]
  unfold weekday
  repeat' split
  all_goals omega

theorem forwardToMonday_eq (u : Int) : forwardToMonday 6 u = u + (7 - weekday u) % 7 := by
  simp only [forwardToMonday]
  unfold weekday
  repeat' split
  all_goals omega

theorem addWeekday_moves {wd n : Int} (hw : 0 ≤ wd ∧ wd < 7) (hn : n ≠ 0) (u d : Int) :
    d = addWeekday wd n u ↔ Moves (.weekday wd n) u d := by
  simp only [Moves, weekday_iff]
  unfold addWeekday weekday
  split <;> omega

theorem not_inYear_iff (d y : Int) : ¬ InYear d y ↔ yearOf d ≠ y := not_congr (inYear_iff d y)

theorem taiwan_year (x : Int) : (∃ y, InYear x y ∧ 2014 ≤ y) ↔ 2013 < yearOf x := by
  constructor
  · rintro ⟨y, h, hy⟩
    have := (inYear_iff x y).1 h
    omega
  · intro h
    exact ⟨yearOf x, (inYear_iff x _).2 rfl, by omega⟩

/-- Observances given by a table alone. -/
theorem single_table {f : Int → Int} {t : WeekTable} {u d : Int}
    (h : ∀ l, t[(weekday u).toNat]? = some l → l = [f u - u])
    (hlen : t.length = 7) : d ∈ [f u] ↔ ByTable t u d := by
  rw [byTable_iff]
  have hr := weekday_range u
  have hlt : (weekday u).toNat < t.length := by omega
  have hs : t[(weekday u).toNat]? = some t[(weekday u).toNat] := List.getElem?_eq_getElem hlt
  have := h _ hs
  rw [hs, this]
  simp

/-! ### Easter -/

theorem easterP_eq (y : Int) : ∃ j, 0 ≤ j ∧ j < 7 ∧ easterP y = paschalAge y - j := by
  have hj : ∀ a b x : Int, a = b → ∃ j, 0 ≤ j ∧ j < 7 ∧ a - x % 7 = b - j :=
    fun a b x h => ⟨x % 7, by omega, by omega, by omega⟩
  unfold easterP
  simp only
  apply hj
  unfold paschalAge
  simp only
  have hh : ∀ c g : Int, (c - c / 4 - (8 * c + 13) / 25 + 19 * g + 15) % 30 =
      (19 * g + 15 + (c - c / 4) - (8 * c + 13) / 25) % 30 := fun c g => by congr 1; omega
  rw [hh]
  have hr : ∀ x : Int, 0 ≤ x % 30 ∧ x % 30 < 30 := fun x => by omega
  have hr' := hr (19 * (y % 19) + 15 + (y / 100 - y / 100 / 4) - (8 * (y / 100) + 13) / 25)
  generalize (19 * (y % 19) + 15 + (y / 100 - y / 100 / 4) - (8 * (y / 100) + 13) / 25) % 30 = h at *
  have hg : 0 ≤ y % 19 ∧ y % 19 < 19 := by omega
  generalize hgy : y % 19 = g at *
  have key : h - (h / 28) * (1 - (h / 28) * (29 / (h + 1)) * ((21 - g) / 11)) =
      (if h = 29 then 28 else if h = 28 ∧ 11 ≤ g then 27 else h) := by
    by_cases h29 : h = 29
    · subst h29; simp
    · by_cases h28 : h = 28
      · subst h28
        simp
        split <;> omega
      · have : h / 28 = 0 := by omega
        simp [this, h29, h28]
  rw [key]

theorem paschalAge_range (y : Int) : 0 ≤ paschalAge y ∧ paschalAge y ≤ 28 := by
  unfold paschalAge
  simp only
  split
  · omega
  · split <;> omega

theorem march_valid (y k : Int) (h : 1 ≤ k ∧ k ≤ 31) : Date.Valid ⟨y, 3, k⟩ := by
  refine ⟨?_, ?_, ?_, ?_⟩ <;> simp [monthLength] <;> omega

theorem march_day (y k : Int) : dayOf y 3 k = dayOf y 3 28 + (k - 28) := by
  unfold dayOf; omega

/-- `dateutil.easter` computes Easter Sunday. -/
theorem easterSunday_iff (y d : Int) : EasterSunday y d ↔ d = easter y := by
  have h21 : DayNumber ⟨y, 3, 21⟩ (dayOf y 3 21) :=
    (dayNumber_iff _ _).2 ⟨march_valid y 21 (by omega), rfl⟩
  obtain ⟨j, hj0, hj7, hp⟩ := easterP_eq y
  have he := easter_eq y
  have hs := easter_sunday y
  have hm := march_day y 21
  constructor
  · rintro ⟨m, hm', hw, h1, h2⟩
    have := ((dayNumber_iff _ _).1 hm').2
    simp only at this
    rw [weekday_iff] at hw
    unfold weekday at hw hs
    omega
  · rintro rfl
    refine ⟨_, h21, (weekday_iff _ _).2 hs, ?_, ?_⟩ <;> omega

theorem easter_in_year (y : Int) : jan1 y + 79 ≤ easter y ∧ easter y ≤ jan1 (y + 1) - 251 := by
  have h1 := easter_eq y
  have h2 := march28 y
  have h3 := easterP_range y
  have h4 := jan1_succ y
  split at h4 <;> omega

theorem yearOf_easter (y : Int) : yearOf (easter y) = y := by
  rw [yearOf_eq_iff]
  have := easter_in_year y
  omega

theorem easter_lt {y y' : Int} (h : y < y') : easter y < easter y' := by
  have h1 := easter_in_year y
  have h2 := easter_in_year y'
  have h3 : jan1 (y + 1) ≤ jan1 y' := jan1_le_iff.2 (by omega)
  omega

/-- `Easter()` leads to the next Easter Sunday. -/
theorem nextEaster_moves (u d : Int) : d = nextAnnual easter u ↔ Moves .easter u d := by
  simp only [Moves, easterSunday_iff]
  have hy := yearOf_spec u
  have hlt : u < easter (yearOf u + 1) := by
    have := easter_in_year (yearOf u + 1); omega
  have hprev : ∀ y, y < yearOf u → easter y ≤ u := fun y h => by
    have h1 := easter_in_year y
    have h3 : jan1 (y + 1) ≤ jan1 (yearOf u) := jan1_le_iff.2 (by omega)
    omega
  have uniq : ∀ a b : Int, ((∃ y, a = easter y) ∧ u < a ∧ ∀ y e, e = easter y → u < e → a ≤ e) →
      ((∃ y, b = easter y) ∧ u < b ∧ ∀ y e, e = easter y → u < e → b ≤ e) → a = b := by
    rintro a b ⟨⟨ya, ha⟩, hua, hma⟩ ⟨⟨yb, hb⟩, hub, hmb⟩
    have := hma yb b hb hub
    have := hmb ya a ha hua
    omega
  have sat : (∃ y, nextAnnual easter u = easter y) ∧ u < nextAnnual easter u ∧
      ∀ y e, e = easter y → u < e → nextAnnual easter u ≤ e := by
    unfold nextAnnual
    split
    · rename_i h
      refine ⟨⟨_, rfl⟩, h, ?_⟩
      rintro y e rfl hue
      by_cases hyy : y < yearOf u
      · have := hprev y hyy; omega
      · by_cases hyy' : y = yearOf u
        · subst hyy'; omega
        · have := easter_lt (y := yearOf u) (y' := y) (by omega); omega
    · rename_i h
      refine ⟨⟨_, rfl⟩, hlt, ?_⟩
      rintro y e rfl hue
      by_cases hyy : y < yearOf u
      · have := hprev y hyy; omega
      · by_cases hyy' : y = yearOf u
        · subst hyy'; omega
        · by_cases hyy'' : y = yearOf u + 1
          · subst hyy''; omega
          · have := easter_lt (y := yearOf u + 1) (y' := y) (by omega); omega
  constructor
  · rintro rfl; exact sat
  · intro h; exact uniq _ _ h sat

/-! ### Months -/

/-- `f` is the first day of a month. -/
def MonthStart (f : Int) : Prop := ∃ y m, 1 ≤ m ∧ m ≤ 12 ∧ f = dayOf y m 1

theorem dayOf_add (y m k i : Int) : dayOf y m (k + i) = dayOf y m k + i := by
  unfold dayOf; omega

theorem dayOf_one (y m k : Int) : dayOf y m k = dayOf y m 1 + (k - 1) := by
  unfold dayOf; omega

theorem monthStart_spaced {f f' : Int} (h : MonthStart f) (h' : MonthStart f') (hlt : f < f') :
    f + 28 ≤ f' := by
  obtain ⟨y, m, h1, h2, rfl⟩ := h
  obtain ⟨y', m', h1', h2', rfl⟩ := h'
  apply Decidable.byContradiction
  intro hn
  have hb := monthLength_bounds y m
  have hb' := monthLength_bounds y' m'
  have v : Date.Valid ⟨y, m, dayOf y' m' 1 - dayOf y m 1 + 1⟩ :=
    ⟨h1, h2, by simp only; omega, by simp only; omega⟩
  have v' : Date.Valid ⟨y', m', 1⟩ := ⟨h1', h2', by simp, by simp only; omega⟩
  have := dayOf_inj v v' (by simp only; rw [dayOf_one y m]; omega)
  simp at this
  omega

theorem month_of (u : Int) : 1 ≤ monthOf u ∧ monthOf u ≤ 12 ∧ 1 ≤ dayOfMonth u ∧
    dayOfMonth u ≤ monthLength (yearOf u) (monthOf u) ∧
    u = dayOf (yearOf u) (monthOf u) 1 + (dayOfMonth u - 1) := by
  have hv := toDate_valid u
  have hd := dayOf_toDate u
  refine ⟨hv.1, hv.2.1, hv.2.2.1, hv.2.2.2, ?_⟩
  rw [← dayOf_one]
  exact hd.symm

theorem next_month (y m : Int) (h1 : 1 ≤ m) (h2 : m ≤ 12) :
    dayOf y m 1 + monthLength y m = if m = 12 then dayOf (y + 1) 1 1 else dayOf y (m + 1) 1 := by
  have hb := monthLength_bounds y m
  have v : Date.Valid ⟨y, m, monthLength y m⟩ := ⟨h1, h2, by simp only; omega, Int.le_refl _⟩
  have hs := dayOf_succ v
  simp only [Date.succ, Int.lt_irrefl, if_false] at hs
  have h0 := dayOf_one y m (monthLength y m)
  by_cases h12 : m = 12
  · have : ¬ m < 12 := by omega
    simp only [this, if_false] at hs
    rw [if_pos h12]
    omega
  · have : m < 12 := by omega
    simp only [this, if_true] at hs
    simp only [h12, if_false]
    omega

theorem nextMonthStart_eq (u : Int) : nextMonthStart u =
    dayOf (yearOf u) (monthOf u) 1 + monthLength (yearOf u) (monthOf u) := by
  have h := month_of u
  rw [next_month _ _ h.1 h.2.1]
  rfl

theorem monthStart_current (u : Int) : MonthStart (u - dayOfMonth u + 1) := by
  have h := month_of u
  exact ⟨yearOf u, monthOf u, h.1, h.2.1, by omega⟩

theorem monthStart_next (u : Int) : MonthStart (nextMonthStart u) := by
  have h := month_of u
  unfold nextMonthStart
  split
  · exact ⟨_, 1, by omega, by omega, rfl⟩
  · exact ⟨_, _, by omega, by omega, rfl⟩

theorem next_bounds (u : Int) : u < nextMonthStart u ∧ nextMonthStart u ≤ u + 31 := by
  have h := month_of u
  have h' := nextMonthStart_eq u
  have hb := monthLength_bounds (yearOf u) (monthOf u)
  omega

theorem toDate_monthStart {y m : Int} (h1 : 1 ≤ m) (h2 : m ≤ 12) :
    yearOf (dayOf y m 1) = y ∧ monthOf (dayOf y m 1) = m ∧ dayOfMonth (dayOf y m 1) = 1 := by
  have hb := monthLength_bounds y m
  have v : Date.Valid ⟨y, m, 1⟩ := ⟨h1, h2, by simp, by simp only; omega⟩
  have := toDate_dayOf v
  simp only [toDate, Date.mk.injEq] at this
  exact this

theorem dayOfMonth_start {f : Int} (h : MonthStart f) : dayOfMonth f = 1 := by
  obtain ⟨y, m, h1, h2, rfl⟩ := h
  exact (toDate_monthStart h1 h2).2.2

/-- No month starts between the start of the current month and that of the next. -/
theorem no_start_between {u f : Int} (h : MonthStart f) (hlt : u - dayOfMonth u + 1 < f) :
    nextMonthStart u ≤ f := by
  obtain ⟨y', m', h1', h2', rfl⟩ := h
  have hm := month_of u
  have hn := nextMonthStart_eq u
  apply Decidable.byContradiction
  intro hc
  have hb' := monthLength_bounds y' m'
  have v : Date.Valid ⟨yearOf u, monthOf u,
      dayOf y' m' 1 - dayOf (yearOf u) (monthOf u) 1 + 1⟩ :=
    ⟨hm.1, hm.2.1, by simp only; omega, by simp only; omega⟩
  have v' : Date.Valid ⟨y', m', 1⟩ := ⟨h1', h2', by simp, by simp only; omega⟩
  have := dayOf_inj v v' (by simp only; rw [dayOf_one (yearOf u)]; omega)
  simp at this
  omega

/-- The `week`-th weekday `wd`, counted from 0, of the month starting at `f`. -/
def nthFrom (week wd f : Int) : Int := f + (wd - weekday f) % 7 + week * 7

theorem nthFrom_bounds (week wd f : Int) :
    f + week * 7 ≤ nthFrom week wd f ∧ nthFrom week wd f ≤ f + week * 7 + 6 := by
  unfold nthFrom; omega

theorem nthWeekday_iff {week wd : Int} (hw : 0 ≤ week ∧ week ≤ 3) (hwd : 0 ≤ wd ∧ wd < 7) (d : Int) :
    (∃ y m, NthWeekday (week + 1) wd y m d) ↔ ∃ f, MonthStart f ∧ d = nthFrom week wd f := by
  constructor
  · rintro ⟨y, m, k, hd, hwk, h1, h2, h3⟩
    obtain ⟨hv, hd⟩ := (dayNumber_iff _ _).1 hd
    refine ⟨dayOf y m 1, ⟨y, m, hv.1, hv.2.1, rfl⟩, ?_⟩
    simp only at hd
    rw [dayOf_one] at hd
    rw [weekday_iff] at hwk
    unfold nthFrom
    unfold weekday at *
    omega
  · rintro ⟨f, ⟨y, m, h1, h2, rfl⟩, rfl⟩
    have hb := nthFrom_bounds week wd (dayOf y m 1)
    have hml := monthLength_bounds y m
    refine ⟨y, m, nthFrom week wd (dayOf y m 1) - dayOf y m 1 + 1, ?_, ?_, ?_, ?_, ?_⟩
    · rw [dayNumber_iff]
      refine ⟨⟨h1, h2, ?_, ?_⟩, ?_⟩
      · simp only; omega
      · simp only; omega
      · simp only; rw [dayOf_one]; omega
    · rw [weekday_iff]; unfold nthFrom weekday; omega
    · omega
    · omega
    · omega

theorem weekOfMonthDay_start {week wd f : Int} (h : MonthStart f) :
    f + weekOfMonthDay week wd f - 1 = nthFrom week wd f := by
  have := dayOfMonth_start h
  unfold weekOfMonthDay nthFrom
  rw [this]
  have : f - 1 + 1 = f := by omega
  rw [this]; omega

theorem addWeekOfMonth_eq (week wd u : Int) : addWeekOfMonth week wd u =
    if nthFrom week wd (u - dayOfMonth u + 1) > u then nthFrom week wd (u - dayOfMonth u + 1)
    else nthFrom week wd (nextMonthStart u) := by
  unfold addWeekOfMonth
  simp only
  rw [weekOfMonthDay_start (monthStart_current u), weekOfMonthDay_start (monthStart_next u)]
  have : weekOfMonthDay week wd u > dayOfMonth u ↔ nthFrom week wd (u - dayOfMonth u + 1) > u := by
    unfold weekOfMonthDay nthFrom; omega
  simp only [this]

/-- Of a set of dates the next one after `u` is unique. -/
theorem next_unique {P : Int → Prop} {u a b : Int}
    (ha : P a ∧ u < a ∧ ∀ e, P e → u < e → a ≤ e)
    (hb : P b ∧ u < b ∧ ∀ e, P e → u < e → b ≤ e) : a = b := by
  have := ha.2.2 b hb.1 hb.2.1
  have := hb.2.2 a ha.1 ha.2.1
  omega

theorem moves_weekOfMonth_iff (week wd u d : Int) : Moves (.weekOfMonth week wd) u d ↔
    ((∃ y m, NthWeekday (week + 1) wd y m d) ∧ u < d ∧
      ∀ e, (∃ y m, NthWeekday (week + 1) wd y m e) → u < e → d ≤ e) := by
  simp only [Moves]
  constructor
  · rintro ⟨h1, h2, h3⟩
    exact ⟨h1, h2, fun e ⟨y, m, h⟩ => h3 y m e h⟩
  · rintro ⟨h1, h2, h3⟩
    exact ⟨h1, h2, fun y m e h => h3 e ⟨y, m, h⟩⟩

theorem addWeekOfMonth_moves {week wd : Int} (hw : 0 ≤ week ∧ week ≤ 3) (hwd : 0 ≤ wd ∧ wd < 7)
    (u d : Int) : d = addWeekOfMonth week wd u ↔ Moves (.weekOfMonth week wd) u d := by
  rw [moves_weekOfMonth_iff]
  simp only [nthWeekday_iff hw hwd]
  have hb := nthFrom_bounds week wd
  have h0 := monthStart_current u
  have h1 := monthStart_next u
  have hdm := (month_of u).2.2.1
  have hnb := next_bounds u
  have sat : (∃ f, MonthStart f ∧ addWeekOfMonth week wd u = nthFrom week wd f) ∧
      u < addWeekOfMonth week wd u ∧
      ∀ e, (∃ f, MonthStart f ∧ e = nthFrom week wd f) → u < e → addWeekOfMonth week wd u ≤ e := by
    rw [addWeekOfMonth_eq]
    split
    · rename_i h
      refine ⟨⟨_, h0, rfl⟩, h, ?_⟩
      rintro e ⟨f, hf, rfl⟩ hue
      rcases Int.lt_trichotomy f (u - dayOfMonth u + 1) with hlt | heq | hgt
      · have := monthStart_spaced hf h0 hlt
        have := hb f
        omega
      · rw [heq]; exact Int.le_refl _
      · have := monthStart_spaced h0 hf hgt
        have := hb f
        have := hb (u - dayOfMonth u + 1)
        omega
    · rename_i h
      refine ⟨⟨_, h1, rfl⟩, ?_, ?_⟩
      · have := hb (nextMonthStart u); omega
      rintro e ⟨f, hf, rfl⟩ hue
      rcases Int.lt_trichotomy f (u - dayOfMonth u + 1) with hlt | heq | hgt
      · have := monthStart_spaced hf h0 hlt
        have := hb f
        omega
      · rw [heq] at hue; omega
      · have hge := no_start_between hf hgt
        by_cases he : f = nextMonthStart u
        · rw [he]; exact Int.le_refl _
        · have := monthStart_spaced h1 hf (by omega)
          have := hb f
          have := hb (nextMonthStart u)
          omega
  constructor
  · rintro rfl; exact sat
  · intro h
    exact next_unique (P := fun d => ∃ f, MonthStart f ∧ d = nthFrom week wd f) h sat

/-- The last weekday `wd` before `n`. -/
def lastBefore (wd n : Int) : Int := (n - 1) - (weekday (n - 1) - wd) % 7

theorem lastBefore_bounds (wd n : Int) : n - 7 ≤ lastBefore wd n ∧ lastBefore wd n ≤ n - 1 := by
  unfold lastBefore; omega

theorem monthStart_prev {f : Int} (h : MonthStart f) :
    ∃ y m, 1 ≤ m ∧ m ≤ 12 ∧ f = dayOf y m 1 + monthLength y m := by
  have h1 : f - 1 < f := by omega
  have hn : nextMonthStart (f - 1) = f := by
    have ha := next_bounds (f - 1)
    by_cases he : nextMonthStart (f - 1) = f
    · exact he
    · have hs := monthStart_spaced h (monthStart_next (f - 1)) (by omega)
      have hle := no_start_between (u := f - 1) h (by have := (month_of (f - 1)).2.2.1; omega)
      omega
  have hm := month_of (f - 1)
  exact ⟨_, _, hm.1, hm.2.1, by rw [← nextMonthStart_eq, hn]⟩

theorem lastWeekday_iff {wd : Int} (hwd : 0 ≤ wd ∧ wd < 7) (d : Int) :
    (∃ y m, LastWeekday wd y m d) ↔ ∃ f, MonthStart f ∧ d = lastBefore wd f := by
  constructor
  · rintro ⟨y, m, k, hd, hwk, h1, h2⟩
    obtain ⟨hv, hd⟩ := (dayNumber_iff _ _).1 hd
    refine ⟨dayOf y m 1 + monthLength y m, ?_, ?_⟩
    · rw [next_month y m hv.1 hv.2.1]
      have h3 := hv.1
      have h4 := hv.2.1
      simp only at h3 h4
      split
      · exact ⟨_, 1, by omega, by omega, rfl⟩
      · exact ⟨_, _, by omega, by omega, rfl⟩
    · simp only at hd
      rw [dayOf_one] at hd
      rw [weekday_iff] at hwk
      unfold lastBefore
      unfold weekday at *
      omega
  · rintro ⟨f, hf, rfl⟩
    obtain ⟨y, m, h1, h2, hf⟩ := monthStart_prev hf
    have hb := lastBefore_bounds wd f
    have hml := monthLength_bounds y m
    refine ⟨y, m, lastBefore wd f - dayOf y m 1 + 1, ?_, ?_, ?_, ?_⟩
    · rw [dayNumber_iff]
      refine ⟨⟨h1, h2, ?_, ?_⟩, ?_⟩
      · simp only; omega
      · simp only; omega
      · simp only; rw [dayOf_one]; omega
    · rw [weekday_iff]; unfold lastBefore weekday; omega
    · omega
    · omega

theorem moves_lastWeekOfMonth_iff (wd u d : Int) : Moves (.lastWeekOfMonth wd) u d ↔
    ((∃ y m, LastWeekday wd y m d) ∧ u < d ∧
      ∀ e, (∃ y m, LastWeekday wd y m e) → u < e → d ≤ e) := by
  simp only [Moves]
  constructor
  · rintro ⟨h1, h2, h3⟩
    exact ⟨h1, h2, fun e ⟨y, m, h⟩ => h3 y m e h⟩
  · rintro ⟨h1, h2, h3⟩
    exact ⟨h1, h2, fun y m e h => h3 e ⟨y, m, h⟩⟩

theorem addLastWeekOfMonth_moves {wd : Int} (hwd : 0 ≤ wd ∧ wd < 7)
    (u d : Int) : d = addLastWeekOfMonth wd u ↔ Moves (.lastWeekOfMonth wd) u d := by
  rw [moves_lastWeekOfMonth_iff]
  simp only [lastWeekday_iff hwd]
  have hb := lastBefore_bounds wd
  have h0 := monthStart_current u
  have h1 := monthStart_next u
  have h2 := monthStart_next (nextMonthStart u)
  have hdm := (month_of u).2.2.1
  have hnb := next_bounds u
  have hnb' := next_bounds (nextMonthStart u)
  have hsp := monthStart_spaced h1 h2 hnb'.1
  have sat : (∃ f, MonthStart f ∧ addLastWeekOfMonth wd u = lastBefore wd f) ∧
      u < addLastWeekOfMonth wd u ∧
      ∀ e, (∃ f, MonthStart f ∧ e = lastBefore wd f) → u < e → addLastWeekOfMonth wd u ≤ e := by
    unfold addLastWeekOfMonth
    have e1 : lastWeekdayOfMonth wd u = lastBefore wd (nextMonthStart u) := rfl
    have e2 : lastWeekdayOfMonth wd (nextMonthStart u) =
      lastBefore wd (nextMonthStart (nextMonthStart u)) := rfl
    rw [e1, e2]
    have far : ∀ f, MonthStart f → u < lastBefore wd f → nextMonthStart u ≤ f := by
      intro f hf hue
      apply no_start_between hf
      have := hb f
      omega
    split
    · rename_i h
      refine ⟨⟨_, h1, rfl⟩, h, ?_⟩
      rintro e ⟨f, hf, rfl⟩ hue
      have hge := far f hf hue
      by_cases he : f = nextMonthStart u
      · rw [he]; exact Int.le_refl _
      · have := monthStart_spaced h1 hf (by omega)
        have := hb f
        have := hb (nextMonthStart u)
        omega
    · rename_i h
      refine ⟨⟨_, h2, rfl⟩, ?_, ?_⟩
      · have := hb (nextMonthStart (nextMonthStart u)); omega
      rintro e ⟨f, hf, rfl⟩ hue
      have hge := far f hf hue
      by_cases he : f = nextMonthStart u
      · rw [he] at hue; omega
      · have hd1 := dayOfMonth_start h1
        have hge2 := no_start_between (u := nextMonthStart u) hf (by omega)
        by_cases he2 : f = nextMonthStart (nextMonthStart u)
        · rw [he2]; exact Int.le_refl _
        · have := monthStart_spaced h2 hf (by omega)
          have := hb f
          have := hb (nextMonthStart (nextMonthStart u))
          omega
  constructor
  · rintro rfl; exact sat
  · intro h
    exact next_unique (P := fun d => ∃ f, MonthStart f ∧ d = lastBefore wd f) h sat

/-! ### Offsets and observances meet their specification -/

theorem annual_moves (f : Int → Int) (u d : Int) : d = nextAnnual f u ↔ Moves (.annual f) u d := by
  simp only [Moves, inYear_iff, nextAnnual]
  constructor
  · rintro rfl
    refine ⟨_, rfl, ?_⟩
    split
    · exact .inl ⟨by assumption, rfl⟩
    · exact .inr ⟨by omega, rfl⟩
  · rintro ⟨y, rfl, ⟨h, rfl⟩ | ⟨h, rfl⟩⟩
    · rw [if_pos h]
    · rw [if_neg (by omega)]

theorem offset_moves {o : Offset} (h : GoodOffset o) (u d : Int) : d = o.apply u ↔ Moves o u d := by
  cases o with
  | days n => rfl
  | easter => exact nextEaster_moves u d
  | annual f => exact annual_moves f u d
  | weekday wd n => exact addWeekday_moves ⟨h.1, h.2.1⟩ h.2.2 u d
  | weekOfMonth week wd => exact addWeekOfMonth_moves ⟨h.1, h.2.1⟩ h.2.2 u d
  | lastWeekOfMonth wd => exact addLastWeekOfMonth_moves h u d

theorem offsets_moves {os : List Offset} (h : ∀ o ∈ os, GoodOffset o) (u d : Int) :
    d = os.foldl (fun d o => o.apply d) u ↔ MovesAll os u d := by
  induction os generalizing u with
  | nil => rfl
  | cons o os ih =>
    simp only [List.foldl_cons, MovesAll]
    rw [ih (fun o' ho => h o' (List.mem_cons_of_mem _ ho))]
    constructor
    · intro hm
      exact ⟨_, (offset_moves (h o List.mem_cons_self) u _).1 rfl, hm⟩
    · rintro ⟨v, hv, hm⟩
      rw [← offset_moves (h o List.mem_cons_self)] at hv
      rw [← hv]; exact hm

theorem queen_iff (u d : Int) : d = processQueenBirthday u ↔
    Contributes .processQueenBirthday u d := by
  simp only [Contributes, inYear_iff]
  unfold processQueenBirthday
  simp only [List.contains_cons, List.contains_nil, Bool.or_false, beq_iff_eq, Bool.or_eq_true]
  have hex : ∀ P : Int → Prop, (∃ y, yearOf u = y ∧ P y) ↔ P (yearOf u) :=
    fun P => ⟨fun ⟨y, h, hp⟩ => h ▸ hp, fun h => ⟨_, rfl, h⟩⟩
  rw [hex fun y => if y = 1974 ∨ y = 1981 then Moves (.weekday 6 1) u d
      else if y < 1983 then ByTable [[0], [0], [0], [0], [0], [0], [1]] u d
      else if y = 1985 then Moves (.weekOfMonth 3 0) u d
      else if y = 1983 ∨ y = 1988 ∨ y = 1993 ∨ y = 1994 then Moves (.weekOfMonth 1 0) u d
      else Moves (.weekOfMonth 2 0) u d]
  repeat' split
  · exact addWeekday_moves (by omega) (by omega) u d
  · rw [byTable_iff]
    unfold sundayToMonday
    rcases weekday_cases u with h | h | h | h | h | h | h <;> simp [h] <;> omega
  · exact addWeekOfMonth_moves (by omega) (by omega) u d
  · exact addWeekOfMonth_moves (by omega) (by omega) u d
  · exact addWeekOfMonth_moves (by omega) (by omega) u d

theorem goodFridayUnless_iff (u d : Int) : d ∈ goodFridayUnlessChristmasNyeFriday u ↔
    Contributes .goodFridayUnlessChristmasNyeFriday u d := by
  simp only [Contributes, inYear_iff, ← nextEaster_moves, weekday_iff]
  have vc : ∀ y, Date.Valid ⟨y, 12, 25⟩ := fun y => by
    refine ⟨?_, ?_, ?_, ?_⟩ <;> simp [monthLength]
  have vn : ∀ y, Date.Valid ⟨y, 1, 1⟩ := fun y => by
    refine ⟨?_, ?_, ?_, ?_⟩ <;> simp [monthLength]
  simp only [dayNumber_iff, vc, vn, true_and]
  have h1 : ∀ x, weekday (nearestWorkday x) ≠ 4 ↔ (¬ weekday x = 4 ∧ ¬ weekday x = 5) := by
    intro x; unfold nearestWorkday weekday
    repeat' split
    all_goals omega
  have h2 : ∀ x, weekday (sundayToMonday x) ≠ 4 ↔ ¬ weekday x = 4 := by
    intro x; unfold sundayToMonday weekday
    split <;> omega
  unfold goodFridayUnlessChristmasNyeFriday
  simp only [h1, h2]
  constructor
  · split
    · rename_i h
      intro hd
      simp only [List.mem_singleton] at hd
      exact ⟨_, _, _, rfl, rfl, rfl, h.1.1, h.1.2, h.2, by omega⟩
    · intro hd; simp at hd
  · rintro ⟨y, c, n, rfl, rfl, rfl, hc1, hc2, hn, hd⟩
    rw [if_pos ⟨⟨hc1, hc2⟩, hn⟩]
    simp only [List.mem_singleton]
    omega

theorem obs_iff (o : Obs) (h : o ≠ .followingTuesdayEveryFourYears) (u d : Int) :
    d ∈ o.apply u ↔ Contributes o u d := by
  have tbl : ∀ (l : List Int) (t : WeekTable), (d ∈ l ↔ ∃ l', t[(weekday u).toNat]? = some l' ∧
      (d - u) ∈ l') → (d ∈ l ↔ ByTable t u d) := fun l t h => by rw [byTable_iff]; exact h
  have hdw : ∀ k, (d - u = k ↔ d = u + k) := fun k => by omega
  cases o with
  | followingTuesdayEveryFourYears => exact absurd rfl h
  | processQueenBirthday => simp only [Obs.apply, List.mem_singleton]; exact queen_iff u d
  | goodFridayUnlessChristmasNyeFriday => exact goodFridayUnless_iff u d
  | boxingDayObs => simp [Obs.apply, Contributes, boxingDayObs]
  | notYear y =>
    simp only [Obs.apply, Contributes, notYear, not_inYear_iff]
    split <;> simp_all
  | sundayToMonday =>
    apply tbl; simp only [Obs.apply, TC.sundayToMonday]
    rcases weekday_cases u with h | h | h | h | h | h | h <;> simp [h] <;> omega
  | weekendToMonday =>
    apply tbl; simp only [Obs.apply, TC.weekendToMonday]
    rcases weekday_cases u with h | h | h | h | h | h | h <;> simp [h] <;> omega
  | nextMonday =>
    apply tbl; simp only [Obs.apply, TC.nextMonday]
    rcases weekday_cases u with h | h | h | h | h | h | h <;> simp [h] <;> omega
  | nextMondayOrTuesday =>
    apply tbl; simp only [Obs.apply, TC.nextMondayOrTuesday]
    rcases weekday_cases u with h | h | h | h | h | h | h <;> simp [h] <;> omega
  | previousFriday =>
    apply tbl; simp only [Obs.apply, TC.previousFriday]
    rcases weekday_cases u with h | h | h | h | h | h | h <;> simp [h] <;> omega
  | nearestWorkday =>
    apply tbl; simp only [Obs.apply, TC.nearestWorkday]
    rcases weekday_cases u with h | h | h | h | h | h | h <;> simp [h] <;> omega
  | previousWorkday =>
    apply tbl; simp only [Obs.apply, previousWorkday_eq]
    rcases weekday_cases u with h | h | h | h | h | h | h <;> simp [h] <;> omega
  | fourDayWeekend =>
    apply tbl; simp only [Obs.apply, TC.fourDayWeekend]
    rcases weekday_cases u with h | h | h | h | h | h | h <;> simp [h] <;> omega
  | nearestMondayXbue =>
    apply tbl; simp only [Obs.apply, TC.nearestMondayXbue, forwardToMonday_eq]
    rcases weekday_cases u with h | h | h | h | h | h | h <;> simp [h] <;> omega
  | nearestMondayXsgo =>
    apply tbl; simp only [Obs.apply, TC.nearestMondayXsgo]
    rcases weekday_cases u with h | h | h | h | h | h | h <;> simp [h] <;> omega
  | tuesdayAndWednesdayToFriday =>
    apply tbl; simp only [Obs.apply, TC.tuesdayAndWednesdayToFriday]
    rcases weekday_cases u with h | h | h | h | h | h | h <;> simp [h] <;> omega
  | songkranLastDay =>
    apply tbl; simp only [Obs.apply, TC.songkranLastDay]
    rcases weekday_cases u with h | h | h | h | h | h | h <;> simp [h] <;> omega
  | sundayToTuesday =>
    apply tbl; simp only [Obs.apply, TC.sundayToTuesday]
    rcases weekday_cases u with h | h | h | h | h | h | h <;> simp [h] <;> omega
  | sundayToWednesday =>
    apply tbl; simp only [Obs.apply, TC.sundayToWednesday]
    rcases weekday_cases u with h | h | h | h | h | h | h <;> simp [h] <;> omega
  | onlyFriday =>
    apply tbl; simp only [Obs.apply, TC.onlyFriday]
    rcases weekday_cases u with h | h | h | h | h | h | h <;> simp [h] <;> omega
  | nextMondayOffset =>
    apply tbl; simp only [Obs.apply, TC.addWeekday]
    rcases weekday_cases u with h | h | h | h | h | h | h <;> simp [h] <;> omega
  | culturalDiversity =>
    simp only [Obs.apply, Contributes, TC.culturalDiversity, not_inYear_iff]
    have : d = TC.nearestMondayXbue u ↔ ByTable [[0], [-1], [-2], [4], [3], [2], [1]] u d := by
      rw [byTable_iff]
      simp only [TC.nearestMondayXbue, forwardToMonday_eq]
      rcases weekday_cases u with h | h | h | h | h | h | h <;> simp [h] <;> omega
    rw [← this]
    constructor
    · split
      · intro hd; simp only [List.mem_singleton] at hd; subst hd; exact ⟨rfl, by assumption⟩
      · intro hd; simp at hd
    · rintro ⟨rfl, hy⟩; simp [hy]
  | weekendToMondayExcept ys =>
    simp only [Obs.apply, Contributes, TC.weekendToMondayExcept, not_inYear_iff]
    have : d = TC.weekendToMonday u ↔ ByTable [[0], [0], [0], [0], [0], [2], [1]] u d := by
      rw [byTable_iff]
      simp only [TC.weekendToMonday]
      rcases weekday_cases u with h | h | h | h | h | h | h <;> simp [h] <;> omega
    rw [← this]
    have hc : ys.contains (yearOf u) = true ↔ yearOf u ∈ ys := by simp
    constructor
    · split
      · intro hd; simp at hd
      · rename_i hy
        intro hd; simp only [List.mem_singleton] at hd
        exact ⟨hd, fun y hmem heq => hy (hc.2 (heq ▸ hmem))⟩
    · rintro ⟨rfl, hy⟩
      rw [if_neg (fun hh => hy _ (hc.1 hh) rfl)]
      simp
  | nextMondayOrTuesdayExcept y =>
    simp only [Obs.apply, Contributes, TC.nextMondayOrTuesdayExcept, not_inYear_iff]
    have : d = TC.nextMondayOrTuesday u ↔ ByTable [[1], [0], [0], [0], [0], [2], [2]] u d := by
      rw [byTable_iff]
      simp only [TC.nextMondayOrTuesday]
      rcases weekday_cases u with h | h | h | h | h | h | h <;> simp [h] <;> omega
    rw [← this]
    split <;> simp_all
  | taiwanMakeup =>
    simp only [Obs.apply, Contributes, TC.taiwanMakeup, taiwan_year]
    rw [List.mem_append, List.mem_singleton, List.mem_filter, decide_eq_true_iff]
    apply or_congr Iff.rfl
    apply and_congr _ Iff.rfl
    rw [byTable_iff]
    rcases weekday_cases u with h | h | h | h | h | h | h <;> simp [h] <;> omega

/-! ### Rules -/

theorem followingTuesday_iff {y m k : Int} (hv : ∀ y, Date.Valid ⟨y, m, k⟩) (d : Int) :
    d = followingTuesdayEveryFourYears (dayOf y m k) ↔
      Contributes .followingTuesdayEveryFourYears (dayOf y m k) d := by
  have ht := toDate_dayOf (hv y)
  simp only [toDate, Date.mk.injEq] at ht
  unfold followingTuesdayEveryFourYears
  rw [ht.1, ht.2.1, ht.2.2, addWeekday_moves (by omega) (by omega)]
  simp only [Contributes, Moves]
  constructor
  · rintro ⟨hw, ⟨_, h1, h2⟩ | ⟨h, _⟩⟩
    · refine ⟨y, m, k, y + (4 - y % 4) % 4, dayOf (y + (4 - y % 4) % 4) m k, hv y, (dayNumber_iff _ _).2 ⟨hv y, rfl⟩, by omega,
        by omega, by omega, hv _, (dayNumber_iff _ _).2 ⟨hv _, rfl⟩, hw, by omega, by omega⟩
    · omega
  · rintro ⟨y₁, m₁, k₁, y', v, hv₁, hd₁, h4, hy1, hy2, hv', hd', hw, h1, h2⟩
    have hd₁ := (dayNumber_iff _ _).1 hd₁
    have hd' := (dayNumber_iff _ _).1 hd'
    have heq := dayOf_inj hv₁ (hv y) hd₁.2
    simp only [Date.mk.injEq] at heq
    obtain ⟨rfl, rfl, rfl⟩ := heq
    have : y' = y₁ + (4 - y₁ % 4) % 4 := by omega
    subst this
    simp only at hd'
    refine ⟨hw, .inl ⟨by omega, by omega, by omega⟩⟩

theorem ofYear_iff {r : Rule} (h : GoodRule r) (y d : Int) : d ∈ r.ofYear y ↔ KeptOn r y d := by
  unfold Rule.ofYear KeptOn Rule.applyRule
  rw [List.mem_filter]
  have hdow : r.allowsDay d = true ↔
      ∀ ws, r.daysOfWeek = some ws → ∃ w ∈ ws, IsWeekday d w := by
    unfold Rule.allowsDay
    cases r.daysOfWeek with
    | none => simp
    | some ws =>
      simp only [List.contains_iff_mem, Option.some.injEq, forall_eq', weekday_iff]
      constructor
      · intro h; exact ⟨_, h, rfl⟩
      · rintro ⟨w, hw, rfl⟩; exact hw
  rw [hdow]
  have hu : ∀ u, DayNumber ⟨y, r.month, r.day⟩ u ↔ u = dayOf y r.month r.day := by
    intro u
    rw [dayNumber_iff]
    simp only [h.date y, true_and]
    exact ⟨Eq.symm, Eq.symm⟩
  simp only [hu, exists_eq_left]
  apply and_congr _ Iff.rfl
  cases ho : r.observance with
  | none =>
    simp only [List.mem_singleton]
    exact offsets_moves h.offsets _ _
  | some o =>
    simp only
    by_cases hq : o = .followingTuesdayEveryFourYears
    · subst hq
      simp only [Obs.apply, List.mem_singleton]
      exact followingTuesday_iff h.date d
    · exact obs_iff o hq _ _

theorem mem_yearRange (a b y : Int) :
    y ∈ (List.range (b - a + 1).toNat).map (fun (i : Nat) => a + (i : Int)) ↔ a ≤ y ∧ y ≤ b := by
  rw [List.mem_map]
  constructor
  · rintro ⟨i, hi, rfl⟩
    rw [List.mem_range] at hi
    omega
  · rintro ⟨h1, h2⟩
    exact ⟨(y - a).toNat, by rw [List.mem_range]; omega, by omega⟩

theorem inBounds_iff (r : Rule) (d : Int) : r.inBounds d = true ↔
    (∀ s, r.startDate = some s → s ≤ d) ∧ (∀ e, r.endDate = some e → d ≤ e) := by
  unfold Rule.inBounds
  rw [Bool.and_eq_true]
  apply and_congr
  · cases r.startDate <;> simp
  · cases r.endDate <;> simp

theorem le_day {s d : Int} (h : s ≤ d * DAY) : s / DAY ≤ d := by
  have : (0 : Int) < DAY := by simp only [DAY]; omega
  simp only [DAY] at *; omega

/-- The dates of a rule in a window. -/
theorem mem_dates {r : Rule} (hg : GoodRule r) (hn : Near r) (hy : r.year = none) (s e u : Int) :
    u ∈ r.dates s e ↔ ∃ d, u = d * DAY ∧ IsHoliday r d ∧ s ≤ u ∧ u ≤ e := by
  unfold Rule.dates
  rw [hy]
  simp only [List.mem_map, List.mem_filter, List.mem_flatMap, Bool.and_eq_true, decide_eq_true_iff,
    ofYear_iff hg, inBounds_iff]
  unfold IsHoliday
  rw [hy]
  simp only
  constructor
  · rintro ⟨d, ⟨⟨y, _, hk⟩, ⟨hb, h1⟩, h2⟩, rfl⟩
    exact ⟨d, rfl, ⟨⟨y, hk⟩, hb⟩, h1, h2⟩
  · rintro ⟨d, rfl, ⟨⟨y, hk⟩, hb⟩, h1, h2⟩
    obtain ⟨y₁, y₂, hk₁, hin, ha, hc⟩ := hn y d hk
    rw [inYear_iff] at hin
    refine ⟨d, ⟨⟨y₁, ?_, hk₁⟩, ⟨hb, h1⟩, h2⟩, rfl⟩
    unfold Rule.referenceYears
    rw [mem_yearRange]
    constructor
    · have : yearOf (r.startDate.getD (s / DAY)) ≤ yearOf d := by
        apply yearOf_mono
        cases hs : r.startDate with
        | none => exact le_day h1
        | some x => exact hb.1 x hs
      omega
    · have : yearOf d ≤ yearOf (r.endDate.getD (e / DAY)) := by
        apply yearOf_mono
        cases he : r.endDate with
        | none => simp only [Option.getD_none, DAY] at *; omega
        | some x => exact hb.2 x he
      omega

theorem mem_insertSorted (e x : Int) (xs : List Int) :
    x ∈ insertSorted e xs ↔ x = e ∨ x ∈ xs := by
  induction xs with
  | nil => simp [insertSorted]
  | cons f rest ih =>
    unfold insertSorted
    split
    · simp only [List.mem_cons, ih]
      constructor
      · rintro (h | h | h) <;> simp [h]
      · rintro (h | h | h) <;> simp [h]
    · simp

theorem mem_sortInts_aux (xs acc : List Int) (x : Int) :
    x ∈ xs.foldl (fun acc e => insertSorted e acc) acc ↔ x ∈ xs ∨ x ∈ acc := by
  induction xs generalizing acc with
  | nil => simp
  | cons a rest ih =>
    simp only [List.foldl_cons, ih, mem_insertSorted, List.mem_cons]
    constructor
    · rintro (h | h | h) <;> simp [h]
    · rintro ((h | h) | h) <;> simp [h]

theorem mem_sortInts (xs : List Int) (x : Int) : x ∈ sortInts xs ↔ x ∈ xs := by
  unfold sortInts
  rw [mem_sortInts_aux]
  simp

theorem insertSorted_sorted {e : Int} {xs : List Int} (h : xs.Pairwise (· ≤ ·)) :
    (insertSorted e xs).Pairwise (· ≤ ·) := by
  induction xs with
  | nil => simp [insertSorted]
  | cons f rest ih =>
    rw [List.pairwise_cons] at h
    unfold insertSorted
    split
    · rename_i hle
      rw [List.pairwise_cons]
      refine ⟨?_, ih h.2⟩
      intro a ha
      rcases (mem_insertSorted _ _ _).1 ha with rfl | ha
      · exact hle
      · exact h.1 a ha
    · rw [List.pairwise_cons]
      refine ⟨?_, List.pairwise_cons.2 h⟩
      intro a ha
      rcases List.mem_cons.1 ha with rfl | ha
      · omega
      · have := h.1 a ha; omega

theorem sortInts_sorted (xs : List Int) : (sortInts xs).Pairwise (· ≤ ·) := by
  unfold sortInts
  suffices ∀ (xs acc : List Int), acc.Pairwise (· ≤ ·) →
      (xs.foldl (fun acc e => insertSorted e acc) acc).Pairwise (· ≤ ·) from this xs [] .nil
  intro xs
  induction xs with
  | nil => intro acc h; exact h
  | cons a rest ih => intro acc h; exact ih _ (insertSorted_sorted h)

theorem isHoliday_year {r : Rule} (hg : GoodRule r) {y : Int} (hy : r.year = some y) (d : Int) :
    IsHoliday r d ↔ d = dayOf y r.month r.day := by
  unfold IsHoliday
  rw [hy]
  simp only [dayNumber_iff, hg.date y, true_and]
  exact ⟨Eq.symm, Eq.symm⟩

/-- The holidays a calendar of rules yields for a window. -/
theorem mem_holidayCalendar {rules : List Rule} (hg : ∀ r ∈ rules, GoodRule r)
    (hn : ∀ r ∈ rules, Near r) (s e u : Int) :
    u ∈ holidayCalendar rules s e ↔
      s ≤ u ∧ u ≤ e ∧ ∃ r ∈ rules, ∃ d, u = d * DAY ∧ IsHoliday r d := by
  unfold holidayCalendar rulesDates
  rw [List.mem_filter, mem_sortInts, List.mem_flatMap, Bool.and_eq_true, decide_eq_true_iff,
    decide_eq_true_iff]
  constructor
  · rintro ⟨⟨r, hr, hu⟩, h1, h2⟩
    refine ⟨h1, h2, r, hr, ?_⟩
    cases hy : r.year with
    | none =>
      obtain ⟨d, hd, hh, _⟩ := (mem_dates (hg r hr) (hn r hr) hy s e u).1 hu
      exact ⟨d, hd, hh⟩
    | some y =>
      unfold Rule.dates at hu
      rw [hy] at hu
      simp only [List.mem_singleton] at hu
      exact ⟨_, hu, (isHoliday_year (hg r hr) hy _).2 rfl⟩
  · rintro ⟨h1, h2, r, hr, d, hd, hh⟩
    refine ⟨⟨r, hr, ?_⟩, h1, h2⟩
    cases hy : r.year with
    | none => exact (mem_dates (hg r hr) (hn r hr) hy s e u).2 ⟨d, hd, hh, h1, h2⟩
    | some y =>
      unfold Rule.dates
      rw [hy]
      simp only [List.mem_singleton]
      rw [hd, (isHoliday_year (hg r hr) hy _).1 hh]

theorem holidayCalendar_sorted (rules : List Rule) (s e : Int) :
    (holidayCalendar rules s e).Pairwise (· ≤ ·) :=
  (sortInts_sorted _).filter _

end TC
