import Verif.Lemmas.Named
import Verif.Lemmas.ExchangeCheck
import Verif.Props.Build
import Verif.Spec.RuleBooks

/-! # Comparing rule lists with rule books -/

namespace TC
open Spec

theorem weekday_mem (d : Int) : (∃ w ∈ [0, 1, 2, 3, (4 : Int)], IsWeekday d w) ↔ Weekday d := by
  unfold Weekday
  constructor
  · rintro ⟨w, hw, h⟩
    refine ⟨w, ?_, ?_, h⟩ <;> simp at hw <;> omega
  · rintro ⟨w, h1, h2, h⟩
    refine ⟨w, ?_, h⟩
    simp
    omega

/-- Dates that exist, as day numbers. -/
def datesB (l : List (Int × Int × Int)) (ds : List Int) : Bool :=
  (l.all fun e => everyYear e.2.1 e.2.2) && (ds.all fun d => l.any fun e => d == dayOf e.1 e.2.1 e.2.2) &&
  l.all fun e => ds.contains (dayOf e.1 e.2.1 e.2.2)

theorem onDates_iff {l : List (Int × Int × Int)} {ds : List Int} (h : datesB l ds = true) (d : Int) :
    d ∈ ds ↔ OnDates l d := by
  unfold datesB at h
  simp only [Bool.and_eq_true, List.all_eq_true, List.any_eq_true, beq_iff_eq,
    List.contains_iff_mem] at h
  obtain ⟨⟨h1, h2⟩, h3⟩ := h
  constructor
  · intro hd
    obtain ⟨e, he, rfl⟩ := h2 d hd
    exact ⟨e, he, (dn (h1 e he) _ _).2 rfl⟩
  · rintro ⟨e, he, hd⟩
    rw [(dn (h1 e he) _ _).1 hd]
    exact h3 e he

theorem sessions_iff {x : Exchange} (h : GoodRules x.regular) {z : Tz} {start stop : Int} {b : Built}
    (hb : build (x.config z) start stop = .ok b) (hm : DAY ∣ start) {d : Int}
    (h1 : start ≤ d * DAY) (h2 : d * DAY ≤ stop) :
    d * DAY ∈ b.cal.sessions ↔ TradesOn x d := by
  obtain ⟨h3, h4⟩ := Props.c33_sessions hb hm
  have := h4 (d * DAY)
  rw [this, ← tradingDay_iff h z]
  unfold TradingDay
  constructor
  · rintro ⟨_, _, d', hd, hh⟩
    have : d' = d := by simp only [DAY] at hd; omega
    subst this
    exact hh
  · intro hh
    exact ⟨h1, h2, d, rfl, hh⟩

theorem follows_of {x : Exchange} {H : Int → Int → Prop} {closures : List (Int × Int × Int)}
    (hg : rulesB x.regular = true) (hw : x.weekdays = [0, 1, 2, 3, 4])
    (ha : datesB closures x.adhoc = true)
    (hh : ∀ d, 0 ≤ d → ((∃ r ∈ x.regular, IsHoliday r d) ↔ ∃ y, H y d)) :
    FollowsBook x H closures := by
  intro z start stop b hb hm d h1 h2 h3 h4
  rw [sessions_iff (rules_of hg) hb hm h1 h2]
  unfold TradesOn
  rw [hw, weekday_mem, onDates_iff ha]
  refine and_congr_right fun _ => and_congr_right fun _ => ?_
  have := hh d h3
  constructor
  · intro h y hy
    obtain ⟨r, hr, hd⟩ := this.2 ⟨y, hy⟩
    exact h h3 h4 r hr hd
  · intro h _ _ r hr hd
    obtain ⟨y, hy⟩ := this.1 ⟨r, hr, hd⟩
    exact h y hy

/-! ### More shapes of rules -/

theorem kept_weekendToMonday {r : Rule} (ho : r.observance = some .weekendToMonday)
    (hw : r.daysOfWeek = none) (y d : Int) :
    KeptOn r y d ↔ WeekendToMonday y r.month r.day d := by
  unfold KeptOn WeekendToMonday
  simp only [ho, hw, ← obs_iff .weekendToMonday (by decide), Obs.apply, List.mem_singleton,
    weekendToMonday, weekday_iff]
  constructor
  · rintro ⟨u, hu, h, -⟩
    subst h
    repeat' split
    · right
      refine ⟨?_, .inl (by simpa using hu)⟩
      unfold weekday at *; omega
    · right
      refine ⟨?_, .inr (by simpa using hu)⟩
      unfold weekday at *; omega
    · left; refine ⟨hu, by assumption, by assumption⟩
  · rintro (⟨h1, h2, h3⟩ | ⟨h2, h1 | h1⟩)
    · exact ⟨d, h1, by simp [h2, h3], by simp⟩
    · refine ⟨d - 1, h1, ?_, by simp⟩
      have : weekday (d - 1) = 6 := by unfold weekday at *; omega
      rw [if_pos this]; omega
    · refine ⟨d - 2, h1, ?_, by simp⟩
      have : weekday (d - 2) = 5 := by unfold weekday at *; omega
      rw [if_neg (by omega), if_pos this]; omega

theorem kept_previousFriday {r : Rule} (ho : r.observance = some .previousFriday)
    (hw : r.daysOfWeek = none) (y d : Int) :
    KeptOn r y d ↔ WeekendToFriday y r.month r.day d := by
  unfold KeptOn WeekendToFriday
  simp only [ho, hw, ← obs_iff .previousFriday (by decide), Obs.apply, List.mem_singleton,
    previousFriday, weekday_iff]
  constructor
  · rintro ⟨u, hu, h, -⟩
    subst h
    repeat' split
    · right
      refine ⟨?_, .inl (by simpa using hu)⟩
      unfold weekday at *; omega
    · right
      refine ⟨?_, .inr (by simpa using hu)⟩
      unfold weekday at *; omega
    · left; refine ⟨hu, by assumption, by assumption⟩
  · rintro (⟨h1, h2, h3⟩ | ⟨h2, h1 | h1⟩)
    · exact ⟨d, h1, by simp [h2, h3], by simp⟩
    · refine ⟨d + 1, h1, ?_, by simp⟩
      have : weekday (d + 1) = 5 := by unfold weekday at *; omega
      rw [if_pos this]; omega
    · refine ⟨d + 2, h1, ?_, by simp⟩
      have : weekday (d + 2) = 6 := by unfold weekday at *; omega
      rw [if_neg (by omega), if_pos this]; omega

theorem InYear.of_weekendToMonday {y m k d : Int} (h : everyYear m k = true)
    (h' : everyYear m (k + 1) = true) (h'' : everyYear m (k + 2) = true)
    (hp : WeekendToMonday y m k d) : InYear d y := by
  rcases hp with ⟨hp, _⟩ | ⟨_, hp | hp⟩
  · exact inYear_of hp
  · have := (dn_shift h h' y d).1 (by rw [show k + 1 - k = 1 by omega]; exact hp)
    exact inYear_of this
  · have := (dn_shift h h'' y d).1 (by rw [show k + 2 - k = 2 by omega]; exact hp)
    exact inYear_of this

theorem InYear.of_weekendToFriday {y m k d : Int} (h : everyYear m k = true)
    (h' : everyYear m (k - 1) = true) (h'' : everyYear m (k - 2) = true)
    (hp : WeekendToFriday y m k d) : InYear d y := by
  rcases hp with ⟨hp, _⟩ | ⟨_, hp | hp⟩
  · exact inYear_of hp
  · have := (dn_shift h h' y d).1 (by rw [show d - (k - 1 - k) = d + 1 by omega]; exact hp)
    exact inYear_of this
  · have := (dn_shift h h'' y d).1 (by rw [show d - (k - 2 - k) = d + 2 by omega]; exact hp)
    exact inYear_of this

/-- A rule that ended before day `0` has no holidays from then on. -/
theorem ended {r : Rule} (hy : r.year = none) {e : Int} (he : r.endDate = some e) (hneg : e < 0)
    {d : Int} (hd : 0 ≤ d) : IsHoliday r d ↔ False := by
  unfold IsHoliday
  rw [hy]
  simp only [iff_false]
  rintro ⟨_, _, h⟩
  have := h e he
  omega

theorem year_nonneg {d y : Int} (h : InYear d y) (hd : 0 ≤ d) : 1970 ≤ y :=
  (inYear_ge h 1970).1 (by rw [show dayOf 1970 1 1 = 0 by decide]; exact hd)

theorem not_jan1 {m k : Int} (h : everyYear m k = true) (hne : ¬ (m = 1 ∧ k = 1)) {y d : Int}
    (hd : DayNumber ⟨y, m, k⟩ d) : d ≠ dayOf y 1 1 := by
  intro he
  have := dayOf_inj (everyYear_valid h y) (everyYear_valid (show everyYear 1 1 = true by decide) y)
    (((dn h y d).1 hd).symm.trans he)
  simp only [Date.mk.injEq] at this
  exact hne ⟨this.2.1, this.2.2⟩

end TC
