import Verif.Lemmas.HolidayCheck

/-!
# What rules of common shapes mean, in the vocabulary of dates
-/

namespace TC
open Spec

/-- A month and day that exist in every year. -/
def everyYear (m k : Int) : Bool := decide (1 ≤ m ∧ m ≤ 12 ∧ 1 ≤ k ∧ k ≤ monthLength 1 m)

theorem everyYear_valid {m k : Int} (h : everyYear m k = true) (y : Int) : Date.Valid ⟨y, m, k⟩ := by
  unfold everyYear at h
  rw [decide_eq_true_iff] at h
  obtain ⟨h1, h2, h3, h4⟩ := h
  refine ⟨h1, h2, h3, Int.le_trans h4 ?_⟩
  simp only [monthLength]
  have : ¬ Leap 1 := by decide
  rw [if_neg this]
  split
  · split <;> omega
  · exact Int.le_refl _

theorem dn {m k : Int} (h : everyYear m k = true) (y d : Int) :
    DayNumber ⟨y, m, k⟩ d ↔ d = dayOf y m k := by
  rw [dayNumber_iff]
  simp only [everyYear_valid h y, true_and]
  exact eq_comm

/-- The bounds of a rule, by years. -/
theorem ge_year {x : Date} {d : Int} (h : DayNumber x d) (a : Int) : dayOf a 1 1 ≤ d ↔ a ≤ x.year := by
  obtain ⟨hv, rfl⟩ := (dayNumber_iff _ _).1 h
  have hy := dayOf_in_year hv
  have e : dayOf a 1 1 = jan1 a := by unfold dayOf daysBeforeMonth; simp
  rw [e]
  constructor
  · intro h1
    have : jan1 a < jan1 (x.year + 1) := by omega
    by_cases hc : a ≤ x.year
    · exact hc
    · have := jan1_le_iff.2 (show x.year + 1 ≤ a by omega); omega
  · intro h1
    have := jan1_le_iff.2 h1; omega

theorem le_year {x : Date} {d : Int} (h : DayNumber x d) (b : Int) :
    d ≤ dayOf b 12 31 ↔ x.year ≤ b := by
  have h1 := ge_year h (b + 1)
  have : dayOf (b + 1) 1 1 = dayOf b 12 31 + 1 := by
    have h2 := dayOf_succ (x := ⟨b, 12, 31⟩) (everyYear_valid (by decide) b)
    have e : (Date.succ ⟨b, 12, 31⟩) = ⟨b + 1, 1, 1⟩ := by simp [Date.succ, monthLength]
    rw [e] at h2
    exact h2
  omega

/-- `InYear` version. -/
theorem inYear_ge {d y : Int} (h : InYear d y) (a : Int) : dayOf a 1 1 ≤ d ↔ a ≤ y := by
  obtain ⟨m, k, _, hd⟩ := h
  exact ge_year hd a

theorem inYear_le {d y : Int} (h : InYear d y) (b : Int) : d ≤ dayOf b 12 31 ↔ y ≤ b := by
  obtain ⟨m, k, _, hd⟩ := h
  exact le_year hd b

theorem inYear_of {y m k d : Int} (h : DayNumber ⟨y, m, k⟩ d) : InYear d y :=
  ⟨m, k, ((dayNumber_iff _ _).1 h).1, h⟩

theorem InYear.of_nth {n w y m d : Int} (h : NthWeekday n w y m d) : InYear d y := by
  obtain ⟨k, hk, _⟩ := h; exact inYear_of hk

theorem InYear.of_last {w y m d : Int} (h : LastWeekday w y m d) : InYear d y := by
  obtain ⟨k, hk, _⟩ := h; exact inYear_of hk

/-- From the meaning of a rule by years to the dates it yields. -/
theorem yields_of {r : Rule} (hg : goodRuleB r = true) (hn : nearB r = true) (hy : r.year = none)
    {P : Int → Int → Prop} (h : ∀ d, IsHoliday r d ↔ ∃ y, P y d) : Yields r P := by
  intro start stop u
  rw [mem_dates (goodRule_of hg) (near_of (goodRule_of hg) hn) hy]
  constructor
  · rintro ⟨d, h1, h2, h3, h4⟩
    obtain ⟨y, hp⟩ := (h d).1 h2
    exact ⟨y, d, h1, hp, h3, h4⟩
  · rintro ⟨y, d, h1, h2, h3, h4⟩
    exact ⟨d, h1, (h d).2 ⟨y, h2⟩, h3, h4⟩

/-- The bounds of a rule: years from `lo` to `hi`. -/
structure YearBounds (r : Rule) (lo hi : Option Int) : Prop where
  start : r.startDate = lo.map fun a => dayOf a 1 1
  stop : r.endDate = hi.map fun b => dayOf b 12 31

/-- Year `y` is within optional bounds. -/
def within (lo hi : Option Int) (y : Int) : Prop :=
  (∀ a, lo = some a → a ≤ y) ∧ (∀ b, hi = some b → y ≤ b)

/-- A rule without `year` whose holidays of each reference year are `P y`, always inside that
year. -/
theorem holiday_years {r : Rule} {lo hi : Option Int} (hb : YearBounds r lo hi) (hy : r.year = none)
    {P : Int → Int → Prop} (hk : ∀ y d, KeptOn r y d ↔ P y d) (hin : ∀ y d, P y d → InYear d y)
    (d : Int) : IsHoliday r d ↔ ∃ y, within lo hi y ∧ P y d := by
  unfold IsHoliday
  rw [hy]
  simp only [hk, hb.start, hb.stop, within]
  constructor
  · rintro ⟨⟨y, hp⟩, h1, h2⟩
    refine ⟨y, ⟨?_, ?_⟩, hp⟩
    · rintro a rfl; exact (inYear_ge (hin y d hp) a).1 (h1 _ rfl)
    · rintro b rfl; exact (inYear_le (hin y d hp) b).1 (h2 _ rfl)
  · rintro ⟨y, ⟨h1, h2⟩, hp⟩
    refine ⟨⟨y, hp⟩, ?_, ?_⟩
    · intro s hs
      cases lo with
      | none => simp at hs
      | some a => simp at hs; subst hs; exact (inYear_ge (hin y d hp) a).2 (h1 a rfl)
    · intro s hs
      cases hi with
      | none => simp at hs
      | some a => simp at hs; subst hs; exact (inYear_le (hin y d hp) a).2 (h2 a rfl)

/-! ### Shapes -/

theorem kept_plain {r : Rule} (ho : r.observance = none) (hw : r.daysOfWeek = none) (y d : Int) :
    KeptOn r y d ↔ ∃ u, DayNumber ⟨y, r.month, r.day⟩ u ∧ MovesAll r.offsets u d := by
  unfold KeptOn
  simp [ho, hw]

/-- A fixed date, perhaps on certain weekdays only. -/
theorem kept_fixed {r : Rule} (ho : r.observance = none) (hoff : r.offsets = []) (y d : Int) :
    KeptOn r y d ↔ DayNumber ⟨y, r.month, r.day⟩ d ∧
      ∀ ws, r.daysOfWeek = some ws → ∃ w ∈ ws, IsWeekday d w := by
  unfold KeptOn
  simp only [ho, hoff, MovesAll]
  constructor
  · rintro ⟨u, h1, rfl, h2⟩; exact ⟨h1, h2⟩
  · rintro ⟨h1, h2⟩; exact ⟨d, h1, rfl, h2⟩

/-- The `n`-th weekday `w` of a month: `DateOffset(weekday=WD(n))` from the first. -/
theorem kept_nth {r : Rule} {w n : Int} (ho : r.observance = none) (hw : r.daysOfWeek = none)
    (hoff : r.offsets = [.weekday w n]) (hd : r.day = 1) (hm : everyYear r.month 1 = true)
    (hn : 1 ≤ n ∧ n ≤ 4) (y d : Int) : KeptOn r y d ↔ NthWeekday n w y r.month d := by
  rw [kept_plain ho hw, hoff, hd]
  simp only [MovesAll, Moves, dn hm]
  have hv := everyYear_valid hm y
  have hl := monthLength_bounds y r.month
  constructor
  · rintro ⟨u, rfl, v, ⟨h1, h2⟩, rfl⟩
    refine ⟨d - dayOf y r.month 1 + 1, ?_, h1, ?_, ?_, ?_⟩
    · rw [dayNumber_iff]
      refine ⟨⟨hv.1, hv.2.1, ?_, ?_⟩, ?_⟩
      · simp only; omega
      · simp only; omega
      · simp only; rw [dayOf_one]; omega
    all_goals omega
  · rintro ⟨k, hk, h1, h2, h3, h4⟩
    have := ((dayNumber_iff _ _).1 hk).2
    simp only at this
    rw [dayOf_one] at this
    exact ⟨_, rfl, d, ⟨h1, by omega⟩, rfl⟩

/-- The last weekday `w` of a month of `L` days, counted on from day `L - 6`. -/
theorem kept_last {r : Rule} {w : Int} (ho : r.observance = none) (hw : r.daysOfWeek = none)
    (hoff : r.offsets = [.weekday w 1]) (hm : everyYear r.month r.day = true)
    (hl : ∀ y, monthLength y r.month = r.day + 6) (y d : Int) :
    KeptOn r y d ↔ LastWeekday w y r.month d := by
  rw [kept_plain ho hw, hoff]
  simp only [MovesAll, Moves, dn hm]
  have hv := everyYear_valid hm y
  have hl := hl y
  have h3 := hv.2.2.1
  have hone := dayOf_one y r.month r.day
  simp only at h3
  constructor
  · rintro ⟨u, rfl, v, ⟨h1, h2⟩, rfl⟩
    refine ⟨d - dayOf y r.month 1 + 1, ?_, h1, ?_, ?_⟩
    · rw [dayNumber_iff]
      refine ⟨⟨hv.1, hv.2.1, ?_, ?_⟩, ?_⟩
      · simp only; omega
      · simp only; omega
      · simp only; rw [dayOf_one]; omega
    all_goals omega
  · rintro ⟨k, hk, h1, h2, h4⟩
    have := ((dayNumber_iff _ _).1 hk).2
    simp only at this
    rw [dayOf_one] at this
    exact ⟨_, rfl, d, ⟨h1, by omega⟩, rfl⟩

/-- The `n`-th to last weekday `w` of a month, counted back from its last day. -/
theorem kept_back {r : Rule} {w n : Int} (ho : r.observance = none) (hw : r.daysOfWeek = none)
    (hoff : r.offsets = [.weekday w n]) (hm : everyYear r.month r.day = true)
    (hl : ∀ y, monthLength y r.month = r.day) (hn : -4 ≤ n ∧ n ≤ -1) (y d : Int) :
    KeptOn r y d ↔ LastWeekday w y r.month (d + 7 * (-n - 1)) := by
  rw [kept_plain ho hw, hoff]
  simp only [MovesAll, Moves, dn hm]
  have hv := everyYear_valid hm y
  have hl := hl y
  have hb := monthLength_bounds y r.month
  have hone := dayOf_one y r.month r.day
  have hwk : ∀ d, IsWeekday (d + 7 * (-n - 1)) w ↔ IsWeekday d w := by
    intro d
    simp only [weekday_iff]
    unfold weekday
    omega
  constructor
  · rintro ⟨u, rfl, v, ⟨h1, h2⟩, rfl⟩
    refine ⟨d + 7 * (-n - 1) - dayOf y r.month 1 + 1, ?_, (hwk d).2 h1, ?_, ?_⟩
    · rw [dayNumber_iff]
      refine ⟨⟨hv.1, hv.2.1, ?_, ?_⟩, ?_⟩
      · simp only; omega
      · simp only; omega
      · simp only; rw [dayOf_one]; omega
    all_goals omega
  · rintro ⟨k, hk, h1, h2, h4⟩
    have := ((dayNumber_iff _ _).1 hk).2
    simp only at this
    rw [dayOf_one] at this
    exact ⟨_, rfl, d, ⟨(hwk d).1 h1, by omega⟩, rfl⟩

/-- Some days after the `n`-th weekday `w` of a month. -/
theorem kept_nth_plus {r : Rule} {w n k : Int} (ho : r.observance = none) (hw : r.daysOfWeek = none)
    (hoff : r.offsets = [.weekday w n, .days k]) (hd : r.day = 1) (hm : everyYear r.month 1 = true)
    (hn : 1 ≤ n ∧ n ≤ 4) (y d : Int) : KeptOn r y d ↔ NthWeekday n w y r.month (d - k) := by
  have h := kept_nth (r := { month := r.month, day := 1, offsets := [.weekday w n] }) (w := w) (n := n)
    rfl rfl rfl rfl hm hn y (d - k)
  rw [← h, kept_plain ho hw, kept_plain rfl rfl, hoff, hd]
  simp only [MovesAll]
  constructor
  · rintro ⟨u, hu, v, hv, v', hv', rfl⟩
    simp only [Moves] at hv'
    exact ⟨u, hu, v, hv, by omega⟩
  · rintro ⟨u, hu, v, hv, he⟩
    exact ⟨u, hu, v, hv, d, by simp only [Moves]; omega, rfl⟩

/-- A date moved from Sunday to Monday. -/
theorem kept_sundayToMonday {r : Rule} (ho : r.observance = some .sundayToMonday)
    (hw : r.daysOfWeek = none) (y d : Int) :
    KeptOn r y d ↔ SundayToMonday y r.month r.day d := by
  unfold KeptOn SundayToMonday
  simp only [ho, hw, ← obs_iff .sundayToMonday (by decide), Obs.apply, List.mem_singleton,
    sundayToMonday, weekday_iff]
  constructor
  · rintro ⟨u, hu, h, -⟩
    split at h
    · right; subst h
      refine ⟨by simpa using hu, ?_⟩
      unfold weekday at *; omega
    · left; subst h; exact ⟨hu, by assumption⟩
  · rintro (⟨h1, h2⟩ | ⟨h1, h2⟩)
    · exact ⟨d, h1, by simp [h2], by simp⟩
    · refine ⟨d - 1, h1, ?_, by simp⟩
      have : weekday (d - 1) = 6 := by unfold weekday at *; omega
      rw [if_pos this]; omega

/-- A date moved to the nearest weekday. -/
theorem kept_nearestWorkday {r : Rule} (ho : r.observance = some .nearestWorkday)
    (hw : r.daysOfWeek = none) (y d : Int) :
    KeptOn r y d ↔ NearestWorkday y r.month r.day d := by
  unfold KeptOn NearestWorkday
  simp only [ho, hw, ← obs_iff .nearestWorkday (by decide), Obs.apply, List.mem_singleton,
    nearestWorkday, weekday_iff]
  constructor
  · rintro ⟨u, hu, h, -⟩
    subst h
    repeat' split
    · right; left
      refine ⟨by simpa using hu, ?_⟩
      unfold weekday at *; omega
    · right; right
      refine ⟨by simpa using hu, ?_⟩
      unfold weekday at *; omega
    · left; refine ⟨hu, by assumption, by assumption⟩
  · rintro (⟨h1, h2, h3⟩ | ⟨h1, h2⟩ | ⟨h1, h2⟩)
    · exact ⟨d, h1, by simp [h2, h3], by simp⟩
    · refine ⟨d + 1, h1, ?_, by simp⟩
      have : weekday (d + 1) = 5 := by unfold weekday at *; omega
      rw [if_pos this]; omega
    · refine ⟨d - 1, h1, ?_, by simp⟩
      have : weekday (d - 1) = 6 := by unfold weekday at *; omega
      rw [if_neg (by omega), if_pos this]; omega

/-! ### Neighbouring days -/

theorem dn_shift {m k k' : Int} (h : everyYear m k = true) (h' : everyYear m k' = true) (y d : Int) :
    DayNumber ⟨y, m, k⟩ (d - (k' - k)) ↔ DayNumber ⟨y, m, k'⟩ d := by
  rw [dn h, dn h', dayOf_one y m k, dayOf_one y m k']
  omega

theorem sundayToMonday_iff {m k : Int} (h : everyYear m k = true) (h' : everyYear m (k + 1) = true)
    (y d : Int) : SundayToMonday y m k d ↔
      (DayNumber ⟨y, m, k⟩ d ∧ ¬ IsWeekday d 6) ∨ (DayNumber ⟨y, m, k + 1⟩ d ∧ IsWeekday d 0) := by
  unfold SundayToMonday
  rw [← dn_shift h h' y d, show k + 1 - k = 1 by omega]

theorem nearestWorkday_iff {m k : Int} (h : everyYear m k = true) (h' : everyYear m (k + 1) = true)
    (h'' : everyYear m (k - 1) = true) (y d : Int) : NearestWorkday y m k d ↔
      (DayNumber ⟨y, m, k⟩ d ∧ ¬ IsWeekday d 5 ∧ ¬ IsWeekday d 6) ∨
      (DayNumber ⟨y, m, k - 1⟩ d ∧ IsWeekday d 4) ∨ (DayNumber ⟨y, m, k + 1⟩ d ∧ IsWeekday d 0) := by
  unfold NearestWorkday
  rw [← dn_shift h h' y d, show k + 1 - k = 1 by omega, ← dn_shift h h'' y d,
    show d - (k - 1 - k) = d + 1 by omega]

theorem InYear.of_sundayToMonday {y m k d : Int} (h : everyYear m k = true)
    (h' : everyYear m (k + 1) = true) (hp : SundayToMonday y m k d) : InYear d y := by
  rw [sundayToMonday_iff h h'] at hp
  rcases hp with ⟨hp, _⟩ | ⟨hp, _⟩ <;> exact inYear_of hp

theorem InYear.of_nearestWorkday {y m k d : Int} (h : everyYear m k = true)
    (h' : everyYear m (k + 1) = true) (h'' : everyYear m (k - 1) = true)
    (hp : NearestWorkday y m k d) : InYear d y := by
  rw [nearestWorkday_iff h h' h''] at hp
  rcases hp with ⟨hp, _⟩ | ⟨hp, _⟩ | ⟨hp, _⟩ <;> exact inYear_of hp

theorem inYear_jan1 (y : Int) {d : Int} : InYear d y ↔ jan1 y ≤ d ∧ d < jan1 (y + 1) := by
  rw [inYear_iff, yearOf_eq_iff]

theorem dayOf_jan1 (y : Int) : dayOf y 1 1 = jan1 y := by unfold dayOf daysBeforeMonth; simp

/-- Days after the `n`-th weekday of a month, still in the month. -/
theorem InYear.of_nth_plus {n w y m d k : Int} (hk : 0 ≤ k ∧ 7 * n + k ≤ monthLength 1 m)
    (h : NthWeekday n w y m (d - k)) : InYear d y := by
  obtain ⟨j, hj, _, h1, h2, h3⟩ := h
  obtain ⟨hv, e⟩ := (dayNumber_iff _ _).1 hj
  have hl : monthLength 1 m ≤ monthLength y m := by
    unfold monthLength
    have : ¬ Leap 1 := by decide
    rw [if_neg this]
    repeat' split
    all_goals omega
  apply inYear_of (m := m) (k := j + k)
  rw [dayNumber_iff]
  refine ⟨⟨hv.1, hv.2.1, ?_, ?_⟩, ?_⟩
  · have := hv.2.2.1; simp only at this ⊢; omega
  · simp only; omega
  · simp only at e ⊢; rw [dayOf_one] at e ⊢; omega

/-- As `holiday_years`, for a rule that ends on the January 1st after its last year and is never kept
on that day. -/
theorem holiday_years_jan {r : Rule} {lo : Option Int} {hi : Int}
    (hs : r.startDate = lo.map fun a => dayOf a 1 1) (he : r.endDate = some (dayOf (hi + 1) 1 1))
    (hy : r.year = none) {P : Int → Int → Prop} (hk : ∀ y d, KeptOn r y d ↔ P y d)
    (hin : ∀ y d, P y d → InYear d y) (hj : ∀ y d, P y d → d ≠ dayOf y 1 1) (d : Int) :
    IsHoliday r d ↔ ∃ y, within lo (some hi) y ∧ P y d := by
  have h := holiday_years (r := { r with endDate := some (dayOf hi 12 31) }) (lo := lo) (hi := some hi)
    ⟨hs, rfl⟩ hy (P := P) hk hin d
  rw [← h]
  unfold IsHoliday
  simp only [hy, he]
  refine and_congr_right (a := ∃ y, KeptOn r y d) ?_
  rintro ⟨y, hky⟩
  have hp := (hk y d).1 hky
  refine and_congr_right fun _ => ?_
  simp only [Option.some.injEq, forall_eq']
  have e : dayOf (hi + 1) 1 1 = dayOf hi 12 31 + 1 := by
    have h2 := dayOf_succ (x := ⟨hi, 12, 31⟩) (everyYear_valid (by decide) hi)
    have e : (Date.succ ⟨hi, 12, 31⟩) = ⟨hi + 1, 1, 1⟩ := by simp [Date.succ, monthLength]
    rw [e] at h2
    exact h2
  have hne := hj y d hp
  have h1 := (inYear_jan1 y).1 (hin y d hp)
  have h2 : d ≠ dayOf (hi + 1) 1 1 := by
    intro hd
    by_cases hc : y = hi + 1
    · subst hc; exact hne hd
    · rw [dayOf_jan1] at hd
      by_cases hlt : y < hi + 1
      · have := jan1_le_iff.2 (show y + 1 ≤ hi + 1 by omega); omega
      · have := jan1_le_iff.2 (show hi + 1 ≤ y by omega)
        have hs := jan1_succ (hi + 1)
        have := jan1_le_iff.2 (show hi + 1 + 1 ≤ y by omega)
        split at hs <;> omega
  omega

theorem InYear.of_last_minus {w y m d k : Int} (hk : 0 ≤ k ∧ k ≤ 21) (h : LastWeekday w y m (d + k)) :
    InYear d y := by
  obtain ⟨j, hj, _, h1, h2⟩ := h
  obtain ⟨hv, e⟩ := (dayNumber_iff _ _).1 hj
  have hl := monthLength_bounds y m
  apply inYear_of (m := m) (k := j - k)
  rw [dayNumber_iff]
  refine ⟨⟨hv.1, hv.2.1, ?_, ?_⟩, ?_⟩
  · simp only; omega
  · simp only; omega
  · simp only at e ⊢; rw [dayOf_one] at e ⊢; omega

theorem dn_of_november {y k d : Int} (h : DayNumber ⟨y, 11, k⟩ d) : jan1 y + 300 ≤ d ∧ d < jan1 y + 340 := by
  obtain ⟨hv, e⟩ := (dayNumber_iff _ _).1 h
  have h3 := hv.2.2.1
  have h4 := hv.2.2.2
  simp only [monthLength] at *
  unfold dayOf daysBeforeMonth at e
  simp at e h4
  split at e <;> omega

/-- The Tuesday after the first Monday of November: the first Tuesday from November 2 on. -/
theorem tuesday_after_monday (y d : Int) :
    (IsWeekday d 1 ∧ dayOf y 11 2 ≤ d ∧ d < dayOf y 11 2 + 7) ↔ NthWeekday 1 0 y 11 (d - 1) := by
  have h := kept_nth (r := { month := 11, day := 1, offsets := [.weekday 0 1] }) (w := 0) (n := 1)
    rfl rfl rfl rfl (by decide) (by decide) y (d - 1)
  rw [← h, kept_plain rfl rfl]
  simp only [MovesAll, Moves, dn (show everyYear 11 1 = true by decide)]
  have e1 := dayOf_one y 11 2
  have hw : IsWeekday (d - 1) 0 ↔ IsWeekday d 1 := by
    simp only [weekday_iff]; unfold weekday; omega
  constructor
  · rintro ⟨h1, h2, h3⟩
    exact ⟨_, rfl, _, ⟨hw.2 h1, by omega⟩, rfl⟩
  · rintro ⟨u, rfl, v, ⟨h1, h2⟩, rfl⟩
    exact ⟨hw.1 h1, by omega, by omega⟩

theorem kept_tuesday_after_monday {r : Rule} (ho : r.observance = none) (hw : r.daysOfWeek = none)
    (hoff : r.offsets = [.weekday 1 1]) (hm : r.month = 11) (hd : r.day = 2) (y d : Int) :
    KeptOn r y d ↔ NthWeekday 1 0 y 11 (d - 1) := by
  rw [kept_plain ho hw, hoff, hm, hd, ← tuesday_after_monday]
  simp only [MovesAll, Moves, dn (show everyYear 11 2 = true by decide)]
  constructor
  · rintro ⟨u, rfl, v, ⟨h1, h2⟩, rfl⟩
    exact ⟨h1, by omega, by omega⟩
  · rintro ⟨h1, h2, h3⟩
    exact ⟨_, rfl, _, ⟨h1, by omega⟩, rfl⟩

/-- `following_tuesday_every_four_years_observance`, from November 2. -/
theorem holiday_quadrennial {r : Rule} {lo hi : Int}
    (ho : r.observance = some .followingTuesdayEveryFourYears) (hw : r.daysOfWeek = none)
    (hm : r.month = 11) (hd : r.day = 2) (hy : r.year = none) (hs : r.startDate = some (dayOf lo 1 1))
    (he : r.endDate = some (dayOf hi 12 31)) (d : Int) :
    IsHoliday r d ↔ ∃ y, lo ≤ y ∧ y ≤ hi ∧ 4 ∣ y ∧ NthWeekday 1 0 y 11 (d - 1) := by
  unfold IsHoliday KeptOn
  simp only [hy, ho, hw, hm, hd, hs, he, Contributes, Option.some.injEq, forall_eq',
    dn (show everyYear 11 2 = true by decide), ← tuesday_after_monday]
  have hin : ∀ y, (IsWeekday d 1 ∧ dayOf y 11 2 ≤ d ∧ d < dayOf y 11 2 + 7) → InYear d y := by
    intro y h
    rw [tuesday_after_monday] at h
    exact InYear.of_nth_plus (by decide) h
  have hN := everyYear_valid (show everyYear 11 2 = true by decide)
  constructor
  · rintro ⟨⟨y, u, rfl, ⟨y₁, m₁, k₁, y', v, hv₁, hd₁, h4, hy1, hy2, hv', hd', hwk, h1, h2⟩, -⟩, h5, h6⟩
    have hd₁ := (dayNumber_iff _ _).1 hd₁
    have heq := dayOf_inj hv₁ (hN y) hd₁.2
    simp only [Date.mk.injEq] at heq
    obtain ⟨rfl, rfl, rfl⟩ := heq
    have hd' := ((dayNumber_iff _ _).1 hd').2
    simp only at hd'
    subst hd'
    have hi' := hin y' ⟨hwk, h1, h2⟩
    exact ⟨y', (inYear_ge hi' lo).1 h5, (inYear_le hi' hi).1 h6, h4, hwk, h1, h2⟩
  · rintro ⟨y, h1, h2, h4, hp⟩
    have hi' := hin y hp
    refine ⟨⟨y, _, rfl, ⟨y, 11, 2, y, _, hN y, (dn (by decide) _ _).2 rfl, h4, by omega, by omega, hN y,
      (dn (by decide) _ _).2 rfl, hp.1, hp.2.1, hp.2.2⟩, by simp⟩, (inYear_ge hi' lo).2 h1,
      (inYear_le hi' hi).2 h2⟩

/-! ### Easter -/

/-- Days from Easter. -/
theorem kept_easter {r : Rule} {k : Int} (hm : r.month = 1) (hd : r.day = 1) (hg : goodRuleB r = true)
    (ho : r.observance = none) (hoff : r.offsets = [.easter, .days k]) (hw : r.daysOfWeek = none)
    (y d : Int) : KeptOn r y d ↔ EasterSunday y (d - k) := by
  rw [← ofYear_iff (goodRule_of hg), easterSunday_iff]
  unfold Rule.ofYear Rule.applyRule
  rw [List.mem_filter, hm, hd]
  simp only [ho, hoff, Rule.allowsDay, hw, and_true, List.foldl_cons, List.foldl_nil,
    List.mem_singleton, Offset.apply]
  have hy1 : yearOf (dayOf y 1 1) = y := (toDate_monthStart (by omega) (by omega)).1
  have hlt : dayOf y 1 1 < easter y := by
    have := easter_in_year y
    have : dayOf y 1 1 = jan1 y := by unfold dayOf daysBeforeMonth; simp
    omega
  unfold nextAnnual
  rw [hy1, if_pos hlt]
  omega

theorem InYear.of_easter {y d k : Int} (hk : -79 ≤ k ∧ k ≤ 250) (h : EasterSunday y (d - k)) :
    InYear d y := by
  rw [easterSunday_iff] at h
  have := easter_plus hk.1 hk.2 (y := y)
  rw [inYear_iff, ← this]
  congr 1
  omega

theorem holiday_goodFriday (d : Int) : IsHoliday goodFriday d ↔ ∃ y, EasterSunday y (d + 2) := by
  rw [holiday_years (lo := none) (hi := none) ⟨rfl, rfl⟩ rfl
    (kept_easter (k := -2) rfl rfl (by decide) rfl rfl rfl)
    (fun y d => InYear.of_easter (by decide))]
  simp [within]

theorem moves_easter_jan1 (y v : Int) : Moves .easter (dayOf y 1 1) v ↔ EasterSunday y v := by
  have h := kept_easter (r := goodFriday) (k := -2) rfl rfl (by decide) rfl rfl rfl y (v + -2)
  rw [kept_plain rfl rfl] at h
  simp only [goodFriday, MovesAll, dn (show everyYear 1 1 = true by decide)] at h
  rw [show v + -2 - -2 = v by omega] at h
  rw [← h]
  constructor
  · intro hm
    exact ⟨_, rfl, v, hm, _, rfl, rfl⟩
  · rintro ⟨u, rfl, v', h1, v'', h2, h3⟩
    simp only [Moves] at h2
    have : v = v' := by omega
    rw [this]
    exact h1

/-- `good_friday_unless_christmas_nye_friday`, from January 1. -/
theorem holiday_goodFridayUnless {r : Rule}
    (ho : r.observance = some .goodFridayUnlessChristmasNyeFriday) (hw : r.daysOfWeek = none)
    (hm : r.month = 1) (hd : r.day = 1) (hy : r.year = none) (hs : r.startDate = none)
    (he : r.endDate = none) (d : Int) :
    IsHoliday r d ↔ ∃ y, EasterSunday y (d + 2) ∧ ¬ IsWeekday (dayOf y 12 25) 4 ∧
      ¬ IsWeekday (dayOf y 12 25) 5 ∧ ¬ IsWeekday (dayOf y 1 1) 4 := by
  unfold IsHoliday KeptOn
  simp only [hy, ho, hw, hm, hd, hs, he, Contributes, dn (show everyYear 1 1 = true by decide),
    dn (show everyYear 12 25 = true by decide)]
  constructor
  · rintro ⟨⟨y, u, rfl, ⟨y', c, n, h1, rfl, rfl, h2, h3, h4, h5⟩, -⟩, -⟩
    have e : y' = y := by
      rw [inYear_iff] at h1
      rw [← h1]
      exact (toDate_monthStart (by omega) (by omega)).1
    subst e
    exact ⟨y', (moves_easter_jan1 _ _).1 h5, h2, h3, h4⟩
  · rintro ⟨y, h1, h2, h3, h4⟩
    refine ⟨⟨y, _, rfl, ⟨y, _, _, ?_, rfl, rfl, h2, h3, h4, (moves_easter_jan1 _ _).2 h1⟩, by simp⟩,
      by simp, by simp⟩
    rw [inYear_iff]
    exact (toDate_monthStart (by omega) (by omega)).1

end TC
