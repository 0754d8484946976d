import Verif.Lemmas.Named
import Verif.Props.Exchanges1
import Verif.Props.Exchanges2
import Verif.Props.Exchanges3
import Verif.Props.Exchanges4

/-!
# C46: early closes of the New York calendar; C47: the US futures calendars
-/

namespace TC.Props
open Spec

/-! ## C46 -/

/-- C46.  Every day with a scheduled early close of XNYS, by rule or ad hoc, in any year, is a trading
day, except 1945-12-24 and 1956-12-24, which are not. -/
theorem c46_early_closes (d t : Int) (h : ClosesEarly Xnys.exchange d t) :
    ¬ TradesOn Xnys.exchange d ↔
      DayNumber ⟨1945, 12, 24⟩ d ∨ DayNumber ⟨1956, 12, 24⟩ d := by
  rw [dn (by decide), dn (by decide)]
  constructor
  · intro hn
    apply Decidable.byContradiction
    intro hc
    exact hn (early_trades_of xnys_check h (by
      simp only [List.mem_cons, List.not_mem_nil, or_false]; exact hc))
  · rintro (rfl | rfl)
    · exact fun h => absurd h.2.1 (by decide +kernel)
    · exact fun h => absurd h.2.1 (by decide +kernel)

/-- 2019-11-29, the day after Thanksgiving, closes early at 13:00. -/
example : ClosesEarly Xnys.exchange (dayOf 2019 11 29) (hm 13 0) :=
  .inl ⟨_, List.mem_cons_self, UsHolidays.usBlackFridayInOrAfter1993, by simp,
    (hits_iff (goodRule_of (by decide)) (near_of (goodRule_of (by decide)) (by decide)) _).1
      (by decide +kernel)⟩

/-- C46.  Constructing XNYS for a range of midnights from 1901-12-15 on, with at least one trading day
and neither of the two days, never fails. -/
theorem c46_constructs {start stop a b : Int} (ha : DayNumber ⟨1945, 12, 24⟩ a)
    (hb : DayNumber ⟨1956, 12, 24⟩ b) (hmid : DAY ∣ start)
    (hfirst : dayOf 1901 12 15 * DAY ≤ start)
    (h1 : a * DAY < start ∨ stop < a * DAY) (h2 : b * DAY < start ∨ stop < b * DAY)
    (ht : ∃ d, start ≤ d * DAY ∧ d * DAY ≤ stop ∧ TradesOn Xnys.exchange d) :
    ∃ cal, build (Xnys.exchange.config Xnys.zone) start stop = .ok cal := by
  rw [dn (by decide)] at ha hb
  obtain ⟨cal, hc, _⟩ := (c54_xnys_zone start stop hfirst hmid).succeeds (by
    intro d hd
    simp only [List.mem_cons, List.not_mem_nil, or_false] at hd
    rcases hd with rfl | rfl
    · rw [← ha]; exact h1
    · rw [← hb]; exact h2) ht
  exact ⟨cal, hc⟩

/-- C46.  Constructing XNYS for a range of midnights that contains 1945-12-24 strictly before its end
raises `ValueError`. -/
theorem c46_refuses_1945 {start stop a : Int} (ha : DayNumber ⟨1945, 12, 24⟩ a) (hmid : DAY ∣ start)
    (hmid' : DAY ∣ stop) (hfirst : dayOf 1901 12 15 * DAY ≤ start) (h1 : start ≤ a * DAY)
    (h2 : a * DAY < stop) :
    build (Xnys.exchange.config Xnys.zone) start stop =
      .error (.valueError "Special dates are not trading days.") := by
  rw [dn (by decide)] at ha
  subst ha
  have hu : OnlyInstant Xnys.zone (dayOf 1945 12 24 * DAY + hm 14 0)
      (dayOf 1945 12 24 * DAY + hm 19 0) :=
    (localize_ok_iff clear_americaNewYork.tame _ _).1 (by decide +kernel)
  refine (c54_xnys_zone start stop hfirst hmid).refuses (dayOf 1945 12 24) (by simp) (hm 14 0) _ ?_ hu
    h1 (by omega) ?_ ?_
  · exact .inl ⟨_, List.mem_cons_of_mem _ List.mem_cons_self, UsHolidays.christmasEveBefore1993,
      by simp, (hits_iff (goodRule_of (by decide)) (near_of (goodRule_of (by decide)) (by decide)) _).1
        (by decide +kernel)⟩
  · simp only [hm, DAY] at *; omega
  · obtain ⟨k, rfl⟩ := hmid'
    simp only [hm, DAY] at *; omega

/-- C46.  The same for 1956-12-24. -/
theorem c46_refuses_1956 {start stop a : Int} (ha : DayNumber ⟨1956, 12, 24⟩ a) (hmid : DAY ∣ start)
    (hmid' : DAY ∣ stop) (hfirst : dayOf 1901 12 15 * DAY ≤ start) (h1 : start ≤ a * DAY)
    (h2 : a * DAY < stop) :
    build (Xnys.exchange.config Xnys.zone) start stop =
      .error (.valueError "Special dates are not trading days.") := by
  rw [dn (by decide)] at ha
  subst ha
  have hu : OnlyInstant Xnys.zone (dayOf 1956 12 24 * DAY + hm 14 0)
      (dayOf 1956 12 24 * DAY + hm 19 0) :=
    (localize_ok_iff clear_americaNewYork.tame _ _).1 (by decide +kernel)
  refine (c54_xnys_zone start stop hfirst hmid).refuses (dayOf 1956 12 24) (by simp) (hm 14 0) _ ?_ hu
    h1 (by omega) ?_ ?_
  · exact .inl ⟨_, List.mem_cons_of_mem _ List.mem_cons_self, UsHolidays.christmasEveBefore1993,
      by simp, (hits_iff (goodRule_of (by decide)) (near_of (goodRule_of (by decide)) (by decide)) _).1
        (by decide +kernel)⟩
  · simp only [hm, DAY] at *; omega
  · obtain ⟨k, rfl⟩ := hmid'
    simp only [hm, DAY] at *; omega

/-- Ranges meeting the hypotheses: the year 2019 can be constructed, December 1945 not. -/
example : ∃ cal, build (Xnys.exchange.config Xnys.zone) (dayOf 2019 1 1 * DAY)
    (dayOf 2019 12 31 * DAY) = .ok cal :=
  c46_constructs (a := dayOf 1945 12 24) (b := dayOf 1956 12 24) ((dn (by decide) _ _).2 rfl)
    ((dn (by decide) _ _).2 rfl) (Int.dvd_mul_left _ _) (by decide) (by decide) (by decide)
    ⟨dayOf 2019 10 16, by decide, by decide, trades_of xnys_check (by decide +kernel)⟩

example : build (Xnys.exchange.config Xnys.zone) (dayOf 1945 12 1 * DAY) (dayOf 1945 12 31 * DAY) =
    .error (.valueError "Special dates are not trading days.") :=
  c46_refuses_1945 (a := dayOf 1945 12 24) ((dn (by decide) _ _).2 rfl) (Int.dvd_mul_left _ _)
    (Int.dvd_mul_left _ _) (by decide) (by decide) (by decide)

/-! ## C47 -/

/-- Every trading day of `x` is one of `x'`. -/
theorem trades_superset {x x' : Exchange} (hw : ∀ w ∈ x.weekdays, w ∈ x'.weekdays)
    (ha : ∀ d ∈ x'.adhoc, d ∈ x.adhoc) (hr : ∀ r ∈ x'.regular, r ∈ x.regular) (d : Int)
    (h : TradesOn x d) : TradesOn x' d := by
  obtain ⟨⟨w, h1, h2⟩, h3, h4⟩ := h
  exact ⟨⟨w, hw w h1, h2⟩, fun h => h3 (ha d h), fun h5 h6 r h7 => h4 h5 h6 r (hr r h7)⟩

/-- C47.  Every CMES session is a `us_futures` session: for every range, whichever zones suit, if both
calendars can be constructed. -/
theorem c47_cmes {z z' : Tz} {start stop : Int} (hz : ZoneFits Cmes.exchange z start stop)
    (hz' : ZoneFits UsFuturesCalendar.exchange z' start stop) (hmid : DAY ∣ start)
    (hlow : NP_NAT + 3 * DAY ≤ start) {b b' : Built}
    (hb : build (Cmes.exchange.config z) start stop = .ok b)
    (hb' : build (UsFuturesCalendar.exchange.config z') start stop = .ok b') :
    ∀ l ∈ b.cal.sessions, l ∈ b'.cal.sessions := by
  intro l hl
  rw [(c54_cmes z start stop hz hmid hlow).labels hb] at hl
  rw [(c54_usFuturesCalendar z' start stop hz' hmid hlow).labels hb']
  obtain ⟨d, h1, h2, h3, h4⟩ := hl
  refine ⟨d, h1, h2, h3, trades_superset (by decide) ?_ ?_ d h4⟩
  · intro d hd; simp [UsFuturesCalendar.exchange] at hd
  · intro r hr; exact hr

/-- C47.  Every IEPA session is a `us_futures` session. -/
theorem c47_iepa {z z' : Tz} {start stop : Int} (hz : ZoneFits Iepa.exchange z start stop)
    (hz' : ZoneFits UsFuturesCalendar.exchange z' start stop) (hmid : DAY ∣ start)
    (hlow : NP_NAT + 3 * DAY ≤ start) {b b' : Built}
    (hb : build (Iepa.exchange.config z) start stop = .ok b)
    (hb' : build (UsFuturesCalendar.exchange.config z') start stop = .ok b') :
    ∀ l ∈ b.cal.sessions, l ∈ b'.cal.sessions := by
  intro l hl
  rw [(c54_iepa z start stop hz hmid hlow).labels hb] at hl
  rw [(c54_usFuturesCalendar z' start stop hz' hmid hlow).labels hb']
  obtain ⟨d, h1, h2, h3, h4⟩ := hl
  refine ⟨d, h1, h2, h3, trades_superset (by decide) ?_ ?_ d h4⟩
  · intro d hd; simp [UsFuturesCalendar.exchange] at hd
  · intro r hr; exact hr

/-- C47 in the zones the calendars use, from 1901-12-15 on: if the range has CMES trading days,
both calendars can be constructed and `us_futures` has all CMES sessions. -/
theorem c47_cmes_zone {start stop : Int} (hfirst : dayOf 1901 12 15 * DAY ≤ start) (hmid : DAY ∣ start)
    (ht : ∃ d, start ≤ d * DAY ∧ d * DAY ≤ stop ∧ TradesOn Cmes.exchange d) :
    ∃ b b', build (Cmes.exchange.config Cmes.zone) start stop = .ok b ∧
      build (UsFuturesCalendar.exchange.config UsFuturesCalendar.zone) start stop = .ok b' ∧
      ∀ l ∈ b.cal.sessions, l ∈ b'.cal.sessions := by
  have h1 := c54_cmes_zone start stop hfirst hmid
  have h2 := c54_usFuturesCalendar_zone start stop hfirst hmid
  have sup : ∀ d, TradesOn Cmes.exchange d → TradesOn UsFuturesCalendar.exchange d :=
    trades_superset (by decide) (by intro d hd; simp [UsFuturesCalendar.exchange] at hd)
      fun r hr => hr
  obtain ⟨b, hb, _⟩ := h1.succeeds (by simp) ht
  obtain ⟨d, h3, h4, h5⟩ := ht
  obtain ⟨b', hb', _⟩ := h2.succeeds (by simp) ⟨d, h3, h4, sup d h5⟩
  refine ⟨b, b', hb, hb', fun l hl => ?_⟩
  rw [h1.labels hb] at hl
  rw [h2.labels hb']
  obtain ⟨d, h1, h2, h3, h4⟩ := hl
  exact ⟨d, h1, h2, h3, sup d h4⟩

/-- C47 in the zones the calendars use, from 1901-12-15 on: if the range has IEPA trading days,
both calendars can be constructed and `us_futures` has all IEPA sessions. -/
theorem c47_iepa_zone {start stop : Int} (hfirst : dayOf 1901 12 15 * DAY ≤ start) (hmid : DAY ∣ start)
    (ht : ∃ d, start ≤ d * DAY ∧ d * DAY ≤ stop ∧ TradesOn Iepa.exchange d) :
    ∃ b b', build (Iepa.exchange.config Iepa.zone) start stop = .ok b ∧
      build (UsFuturesCalendar.exchange.config UsFuturesCalendar.zone) start stop = .ok b' ∧
      ∀ l ∈ b.cal.sessions, l ∈ b'.cal.sessions := by
  have h1 := c54_iepa_zone start stop hfirst hmid
  have h2 := c54_usFuturesCalendar_zone start stop hfirst hmid
  have sup : ∀ d, TradesOn Iepa.exchange d → TradesOn UsFuturesCalendar.exchange d :=
    trades_superset (by decide) (by intro d hd; simp [UsFuturesCalendar.exchange] at hd)
      fun r hr => hr
  obtain ⟨b, hb, _⟩ := h1.succeeds (by simp) ht
  obtain ⟨d, h3, h4, h5⟩ := ht
  obtain ⟨b', hb', _⟩ := h2.succeeds (by simp) ⟨d, h3, h4, sup d h5⟩
  refine ⟨b, b', hb, hb', fun l hl => ?_⟩
  rw [h1.labels hb] at hl
  rw [h2.labels hb']
  obtain ⟨d, h1, h2, h3, h4⟩ := hl
  exact ⟨d, h1, h2, h3, sup d h4⟩

/-- A range meeting the hypotheses: the year 2019. -/
example : ∃ b b', build (Cmes.exchange.config Cmes.zone) (dayOf 2019 1 1 * DAY)
      (dayOf 2019 12 31 * DAY) = .ok b ∧
    build (UsFuturesCalendar.exchange.config UsFuturesCalendar.zone) (dayOf 2019 1 1 * DAY)
      (dayOf 2019 12 31 * DAY) = .ok b' ∧ ∀ l ∈ b.cal.sessions, l ∈ b'.cal.sessions :=
  c47_cmes_zone (by decide) (Int.dvd_mul_left _ _)
    ⟨dayOf 2019 10 16, by decide, by decide, trades_of cmes_check (by decide +kernel)⟩

/-- C47.  The trading days of XCBF that are not `us_futures` days are exactly the Good Fridays, inside
the window in which holidays apply, of years in which Christmas falls on a Friday or Saturday or New
Year's day on a Friday.  (The docstring of `QuantopianUSFuturesCalendar` claims there are none.) -/
theorem c47_xcbf (d : Int) :
    (TradesOn Xcbf.exchange d ∧ ¬ TradesOn UsFuturesCalendar.exchange d) ↔
      0 ≤ d ∧ d ≤ 84370 ∧ ∃ y christmas newYear, EasterSunday y (d + 2) ∧
        DayNumber ⟨y, 12, 25⟩ christmas ∧ DayNumber ⟨y, 1, 1⟩ newYear ∧
        (IsWeekday christmas 4 ∨ IsWeekday christmas 5 ∨ IsWeekday newYear 4) := by
  have hgf : IsHoliday Xcbf.goodFridayUnlessChristmasNYEFriday d ↔
      ∃ y, EasterSunday y (d + 2) ∧ ¬ IsWeekday (dayOf y 12 25) 4 ∧ ¬ IsWeekday (dayOf y 12 25) 5 ∧
        ¬ IsWeekday (dayOf y 1 1) 4 := holiday_goodFridayUnless rfl rfl rfl rfl rfl rfl rfl d
  have h25 : everyYear 12 25 = true := by decide
  have h11 : everyYear 1 1 = true := by decide
  constructor
  · rintro ⟨⟨⟨w, hw, hwd⟩, ha, hreg⟩, hn⟩
    have hn : 0 ≤ d ∧ d ≤ 84370 ∧ IsHoliday goodFriday d := by
      apply Classical.byContradiction
      intro hc
      apply hn
      refine ⟨⟨w, hw, hwd⟩, by simp [UsFuturesCalendar.exchange], fun h0 h1 r hr => ?_⟩
      simp only [UsFuturesCalendar.exchange, UsFuturesCalendar.regular, List.mem_cons,
        List.not_mem_nil, or_false] at hr
      rcases hr with rfl | rfl | rfl
      · exact hreg h0 h1 _ (by simp [Xcbf.exchange, Xcbf.regular])
      · exact fun h => hc ⟨h0, h1, h⟩
      · exact hreg h0 h1 _ (by simp [Xcbf.exchange, Xcbf.regular])
    obtain ⟨h0, h1, hg⟩ := hn
    refine ⟨h0, h1, ?_⟩
    obtain ⟨y, hy⟩ := (holiday_goodFriday d).1 hg
    refine ⟨y, _, _, hy, (dn h25 y _).2 rfl, (dn h11 y _).2 rfl, ?_⟩
    have := mt hgf.2 (hreg h0 h1 Xcbf.goodFridayUnlessChristmasNYEFriday
      (by simp [Xcbf.exchange, Xcbf.regular]))
    apply Classical.byContradiction
    intro hc
    simp only [weekday_iff] at *
    apply this
    exact ⟨y, hy, by omega, by omega, by omega⟩
  · rintro ⟨h0, h1, y, c, n, hy, hc, hn, hcond⟩
    rw [dn h25] at hc
    rw [dn h11] at hn
    subst hc hn
    have hg : IsHoliday goodFriday d := (holiday_goodFriday d).2 ⟨y, hy⟩
    have hfri : weekday d = 4 := by
      have := (weekday_iff _ _).1 hy.choose_spec.2.1
      unfold weekday at *
      omega
    have good : ∀ r, goodRuleB r = true → nearB r = true → GoodRule r ∧ Near r :=
      fun r h1 h2 => ⟨goodRule_of h1, near_of (goodRule_of h1) h2⟩
    obtain ⟨gg, ng⟩ := good goodFriday (by decide) (by decide)
    refine ⟨⟨⟨4, by decide, (weekday_iff _ _).2 hfri⟩, ?_, ?_⟩, ?_⟩
    · intro hd
      have : ∀ d ∈ Xcbf.exchange.adhoc, goodFriday.hits d = false := by decide +kernel
      have := this d hd
      rw [(hits_iff gg ng d).2 hg] at this
      simp at this
    · intro _ _ r hr hh
      have off : ∀ r, goodRuleB r = true → nearB r = true → goodFriday.apart r = true →
          ¬ IsHoliday r d := fun r h1 h2 ha hh => by
        obtain ⟨g, n⟩ := good r h1 h2
        exact apart_sound gg g ng n ha d ⟨hg, hh⟩
      simp only [Xcbf.exchange, Xcbf.regular, List.mem_cons, List.not_mem_nil, or_false] at hr
      rcases hr with rfl | rfl | rfl | rfl | rfl | rfl | rfl | rfl | rfl
      case inr.inr.inr.inl =>
        obtain ⟨y', hy', h3, h4, h5⟩ := hgf.1 hh
        have : y' = y := by
          have a := InYear.of_easter (k := -2) (by decide) (show EasterSunday y (d - -2) from hy)
          have b := InYear.of_easter (k := -2) (by decide) (show EasterSunday y' (d - -2) from hy')
          rw [inYear_iff] at a b
          omega
        subst this
        rcases hcond with h | h | h
        · exact h3 h
        · exact h4 h
        · exact h5 h
      all_goals exact off _ (by decide +kernel) (by decide +kernel) (by decide +kernel) hh
    · rintro ⟨_, _, h⟩
      exact h h0 h1 goodFriday (by simp [UsFuturesCalendar.exchange, UsFuturesCalendar.regular]) hg

/-- Good Friday 2015 is such a day: Christmas 2015 was a Friday. -/
example : TradesOn Xcbf.exchange (dayOf 2015 4 3) ∧
    ¬ TradesOn UsFuturesCalendar.exchange (dayOf 2015 4 3) :=
  (c47_xcbf _).2 ⟨by decide, by decide, 2015, dayOf 2015 12 25, dayOf 2015 1 1,
    (easterSunday_iff _ _).2 (by decide +kernel), (dn (by decide) _ _).2 rfl,
    (dn (by decide) _ _).2 rfl, .inl ((weekday_iff _ _).2 (by decide))⟩

end TC.Props
