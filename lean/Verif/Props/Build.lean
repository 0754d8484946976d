import Verif.Lemmas.Ordered
import Verif.Model.SimpleCalendars

/-!
# Construction of calendars (C33-C39, C41)

`build cfg start stop` is `TradingCalendar.__init__`.  The schedule it produces is read as the list of
sessions `rowsOf b.cal`; `c34_rows` shows that this list is the schedule.

Demo configuration (`demoConfig`): a zone with two DST changes, an open that moves from 9:31 to 10:01
on day 8, a midday break, one ad-hoc and one regular holiday, special closes by rule and ad hoc.
-/

namespace TC.Props
open Spec

/-- UTC-5, UTC-4 between days 10 and 200. -/
def demoZone : Tz :=
  { base := -hm 5 0, trans := [(10 * DAY + hm 7 0, -hm 4 0), (200 * DAY + hm 6 0, -hm 5 0)] }

/-- Days 0 and 1 are Thursday and Friday, 4-8 and 11-15 full weeks. -/
def demoConfig : Config :=
  { tz := demoZone
    adhocHolidays := [5 * DAY]
    regularHolidays := some fun s e => [6 * DAY].filter fun d => decide (s ≤ d) && decide (d ≤ e)
    openTimes := [(none, hm 9 31), (some (8 * DAY), hm 10 1)]
    breakStartTimes := some [(none, hm 12 1)]
    breakEndTimes := some [(none, hm 13 0)]
    closeTimes := [(none, hm 16 0)]
    specialCloses := [(hm 12 30, fun s e =>
      [7 * DAY, 14 * DAY].filter fun d => decide (s ≤ d) && decide (d ≤ e))]
    specialClosesAdhoc := [(hm 13 0, [12 * DAY])] }

/-- The calendar built from `demoConfig` for days 0 to 14. -/
def demoBuilt : Built :=
  { cal :=
      { sessions := [0, 1, 4, 7, 8, 11, 12, 13, 14].map (· * DAY)
        opens := [hm 14 31, DAY + hm 14 31, 4 * DAY + hm 14 31, 7 * DAY + hm 14 31,
          8 * DAY + hm 15 1, 11 * DAY + hm 14 1, 12 * DAY + hm 14 1, 13 * DAY + hm 14 1,
          14 * DAY + hm 14 1]
        breakStarts := [hm 17 1, DAY + hm 17 1, 4 * DAY + hm 17 1, NP_NAT,
          8 * DAY + hm 17 1, 11 * DAY + hm 16 1, NP_NAT, 13 * DAY + hm 16 1, 14 * DAY + hm 16 1]
        breakEnds := [hm 18 0, DAY + hm 18 0, 4 * DAY + hm 18 0, NP_NAT,
          8 * DAY + hm 18 0, 11 * DAY + hm 17 0, NP_NAT, 13 * DAY + hm 17 0, 14 * DAY + hm 17 0]
        closes := [hm 21 0, DAY + hm 21 0, 4 * DAY + hm 21 0, 7 * DAY + hm 17 30,
          8 * DAY + hm 21 0, 11 * DAY + hm 20 0, 12 * DAY + hm 17 0, 13 * DAY + hm 20 0,
          14 * DAY + hm 20 0] }
    firstTradingSession := 0
    lastTradingSession := 14 * DAY
    lateOpens := []
    earlyCloses := [7 * DAY, 12 * DAY] }

/-- The demo configuration builds: the hypotheses `build cfg start stop = .ok b` below are met. -/
theorem demo_build : build demoConfig 0 (14 * DAY) = .ok demoBuilt := by decide +kernel

theorem demo_ordered : Ordered demoConfig := ordered_of (by decide +kernel)

theorem demo_tame : Tame demoConfig.tz := tame_of (by decide +kernel)

theorem demo_whole_times : WholeMinuteTimes demoConfig := wholeMinuteTimes_of (by decide +kernel)

theorem demo_whole_zone : WholeMinuteZone demoConfig.tz := by
  refine ⟨by decide +kernel, fun e he => ?_⟩
  simp only [demoConfig, demoZone, List.mem_cons, List.not_mem_nil, or_false] at he
  rcases he with rfl | rfl <;> decide +kernel

theorem demo_wf : WellFormed demoConfig 0 :=
  demo_ordered.wellFormed demo_tame (by decide) (by decide)

theorem demo_readable : Readable demoConfig 0 (14 * DAY) :=
  readable_of demo_tame (by decide) (by decide +kernel)

theorem demo_fit : SpecialsFit demoConfig 0 (14 * DAY) :=
  specialsFit_of (by decide) (by decide +kernel)

variable {cfg : Config} {start stop : Int} {b : Built}

/-! ## C33: the sessions -/

/-- C33: the sessions of a built calendar are, in increasing order, exactly the midnights in
`[start, end]` of days that are enabled weekdays and neither ad-hoc nor regular holidays. -/
theorem c33_sessions (h : build cfg start stop = .ok b) (hm : DAY ∣ start) :
    b.cal.sessions.Pairwise (· < ·) ∧
    ∀ l, l ∈ b.cal.sessions ↔ start ≤ l ∧ l ≤ stop ∧ ∃ d, l = d * DAY ∧
      (∃ w, IsWeekday d w ∧ cfg.weekmask w = true) ∧
      (∀ x ∈ cfg.adhocHolidays, x / DAY ≠ d) ∧
      (∀ cal, cfg.regularHolidays = some cal →
        ∀ x ∈ cal 0 (84370 * DAY), x / DAY ≠ d) := by
  obtain ⟨sch, hs, hc, _⟩ := build_parts h
  obtain ⟨h1, h2⟩ := schedule_labels hs hm
  rw [hc]
  refine ⟨h1, fun l => ?_⟩
  rw [h2]
  unfold TradingDay
  constructor
  · rintro ⟨d, rfl, h1, h2, h3⟩; exact ⟨h1, h2, d, rfl, h3⟩
  · rintro ⟨h1, h2, d, rfl, h3⟩; exact ⟨d, rfl, h1, h2, h3⟩

example : build demoConfig 0 (14 * DAY) = .ok demoBuilt ∧ DAY ∣ (0 : Int) ∧
    demoBuilt.cal.sessions = [0, 1, 4, 7, 8, 11, 12, 13, 14].map (· * DAY) :=
  ⟨demo_build, by decide, rfl⟩

/-- C33: `first_session` and `last_session` are the least and greatest session; on an empty calendar
they raise `IndexError`. -/
theorem c33_first_last (c : Cal) (hs : c.sessions.Pairwise (· < ·)) :
    (c.sessions = [] → c.firstSession = .error .indexError ∧ c.lastSession = .error .indexError) ∧
    (c.sessions ≠ [] → ∃ f l, c.firstSession = .ok f ∧ c.lastSession = .ok l ∧
      f ∈ c.sessions ∧ l ∈ c.sessions ∧ ∀ x ∈ c.sessions, f ≤ x ∧ x ≤ l) := by
  unfold Cal.firstSession Cal.lastSession
  refine ⟨fun he => ?_, fun hne => ?_⟩
  · rw [he]; exact ⟨rfl, rfl⟩
  · have hp : 0 < c.sessions.length := List.length_pos_iff.mpr hne
    have h0 := pyIndex_of_eq c.sessions (i := 0) (n := 0) rfl hp
    have h1 := pyIndex_neg_one c.sessions hp
    refine ⟨_, _, h0, h1, List.getElem_mem _, List.getElem_mem _, fun x hx => ?_⟩
    obtain ⟨i, hi, rfl⟩ := List.getElem_of_mem hx
    have hpw := List.pairwise_iff_getElem.mp hs
    constructor
    · rcases Nat.eq_zero_or_pos i with rfl | h
      · exact Int.le_refl _
      · exact Int.le_of_lt (hpw 0 i hp hi h)
    · by_cases h : i = c.sessions.length - 1
      · subst h; exact Int.le_refl _
      · exact Int.le_of_lt (hpw i (c.sessions.length - 1) hi (by omega) (by omega))

example : demoBuilt.cal.sessions.Pairwise (· < ·) ∧ demoBuilt.cal.sessions ≠ [] := by decide

/-- C33: `first_trading_session` and `last_trading_session` agree with `first_session` and
`last_session`. -/
theorem c33_first_last_trading (h : build cfg start stop = .ok b) :
    b.cal.firstSession = .ok b.firstTradingSession ∧
    b.cal.lastSession = .ok b.lastTradingSession := by
  obtain ⟨_, _, _, _, hf, hl, _⟩ := build_parts h
  exact ⟨hf, hl⟩

/-- C33: a range without any trading day cannot be built; `ValueError` is raised. -/
theorem c33_empty_range (hwf : WellFormed cfg start) (hr : Readable cfg start stop)
    (hno : ∀ l, ¬ SessionLabel cfg start stop l) :
    ∃ why, build cfg start stop = .error (.valueError why) :=
  build_empty hwf hr hno

/-- Saturday and Sunday 1970-01-03/04 in 24/5: no trading day. -/
example : WellFormed weekdayCalendar (2 * DAY) ∧ Readable weekdayCalendar (2 * DAY) (3 * DAY) ∧
    (∀ l, ¬ SessionLabel weekdayCalendar (2 * DAY) (3 * DAY) l) := by
  refine ⟨(ordered_of (by decide)).wellFormed (tame_of (by decide)) (by decide) (by decide),
    fixed_readable rfl (by decide) _ _, ?_⟩
  rintro l ⟨d, rfl, h1, h2, hd⟩
  rw [← isBusinessDay_iff] at hd
  have h3 : d = 2 ∨ d = 3 := by simp only [DAY] at h1 h2; omega
  rcases h3 with rfl | rfl <;> exact absurd hd (by decide)

/-! ## C34-C36: the times of each session -/

/-- The schedule of a built calendar is its list of sessions: reading the rows loses nothing. -/
theorem c34_rows (h : build cfg start stop = .ok b) (hwf : WellFormed cfg start) :
    Cal.ofSessions (rowsOf b.cal) = b.cal ∧ (rowsOf b.cal).map (·.label) = b.cal.sessions := by
  obtain ⟨sch, hs, hc, _⟩ := build_parts h
  rw [hc]
  exact ⟨(schedule_rows hs hwf).1, rowsOf_labels _⟩

theorem row_facts (h : build cfg start stop = .ok b) (hwf : WellFormed cfg start) :
    ∀ s ∈ rowsOf b.cal, RowFacts cfg start stop s := by
  obtain ⟨sch, hs, hc, _⟩ := build_parts h
  rw [hc]
  exact (schedule_rows hs hwf).2

/-- C34: a session without special open opens at the time of day in effect on its date, on the date
shifted by `open_offset` days, in the calendar's zone; likewise for the close; and a session without
special close of a calendar with breaks has the break in effect on its date. -/
theorem c34_standard_times (h : build cfg start stop = .ok b) (hwf : WellFormed cfg start) :
    ∀ s ∈ rowsOf b.cal,
      ((∀ u, ¬ SpecialOpen cfg start stop s.label u) →
        ∃ t, TimeInEffect cfg.openTimes s.label t ∧
          OnlyInstant cfg.tz (s.label + cfg.openOffset * DAY + t) s.open) ∧
      ((∀ u, ¬ SpecialClose cfg start stop s.label u) →
        ∃ t, TimeInEffect cfg.closeTimes s.label t ∧
          OnlyInstant cfg.tz (s.label + cfg.closeOffset * DAY + t) s.close) ∧
      ((∀ u, ¬ SpecialClose cfg start stop s.label u) →
        ∀ bt et, cfg.breakStartTimes = some bt → cfg.breakEndTimes = some et →
          ∃ x y tx ty, s.brk = some (x, y) ∧
            TimeInEffect bt s.label tx ∧ OnlyInstant cfg.tz (s.label + tx) x ∧
            TimeInEffect et s.label ty ∧ OnlyInstant cfg.tz (s.label + ty) y) := by
  intro s hs
  have f := row_facts h hwf s hs
  refine ⟨f.openStandard, f.closeStandard, fun hno bt et hb he => ?_⟩
  obtain ⟨x, y, hbrk, ⟨tx, h1, h2⟩, ⟨ty, h3, h4⟩⟩ := f.brkStandard hno bt et hb he
  refine ⟨x, y, tx, ty, hbrk, h1, ?_, h3, ?_⟩
  · simpa using h2
  · simpa using h4

/-- The time in effect is determined by the table and the date. -/
theorem c34_time_unique {table : TimeTable} (hv : ValidTable table) (d : Int) :
    ∃ t, TimeInEffect table d t ∧ ∀ t', TimeInEffect table d t' → t' = t := by
  refine ⟨_, timeAt_inEffect hv d, fun t' ht' => ?_⟩
  obtain ⟨b1, s1, a1, e1, h1, g1⟩ := timeAt_inEffect hv d
  obtain ⟨b2, s2, a2, e2, h2, g2⟩ := ht'
  generalize timeAt table d = t at *
  -- the entry in effect is the last one of the prefix of entries in effect
  rw [e1] at e2
  rcases List.append_eq_append_iff.mp e2 with ⟨m, hm1, hm2⟩ | ⟨m, hm1, hm2⟩
  · cases m with
    | nil => simp at hm2; exact hm2.1.2.symm
    | cons x m =>
      simp only [List.cons_append, List.cons.injEq] at hm2
      obtain ⟨rfl, hm2⟩ := hm2
      obtain ⟨y, hy, hlt⟩ := g1 (s2, t') (by rw [hm2]; simp)
      have := h2 y hy
      omega
  · cases m with
    | nil => simp at hm2; exact hm2.1.2
    | cons x m =>
      simp only [List.cons_append, List.cons.injEq] at hm2
      obtain ⟨rfl, hm2⟩ := hm2
      obtain ⟨y, hy, hlt⟩ := g2 (s1, t) (by rw [hm2]; simp)
      have := h1 y hy
      omega

/-- On day 4 the 9:31 entry is in effect, from day 8 on the 10:01 entry. -/
example : ValidTable demoConfig.openTimes ∧ TimeInEffect demoConfig.openTimes (4 * DAY) (hm 9 31) ∧
    TimeInEffect demoConfig.openTimes (8 * DAY) (hm 10 1) :=
  ⟨validTable_of (by decide), ⟨[], none, _, rfl, by simp, by simp; decide⟩,
    ⟨[(none, hm 9 31)], some (8 * DAY), [], rfl, by simp, by simp⟩⟩

example : build demoConfig 0 (14 * DAY) = .ok demoBuilt ∧ WellFormed demoConfig 0 ∧
    (rowsOf demoBuilt.cal).length = 9 := ⟨demo_build, demo_wf, by decide +kernel⟩

/-- C35: an applied special close (open) replaces the close (open) of the session it names: the
session closes at one of the special closes applied to its label (so, if there is one only, at it). -/
theorem c35_override (h : build cfg start stop = .ok b) (hwf : WellFormed cfg start) :
    ∀ s ∈ rowsOf b.cal,
      (∀ u, SpecialOpen cfg start stop s.label u → SpecialOpen cfg start stop s.label s.open) ∧
      (∀ u, SpecialClose cfg start stop s.label u →
        SpecialClose cfg start stop s.label s.close) :=
  fun s hs => ⟨(row_facts h hwf s hs).openSpecial, (row_facts h hwf s hs).closeSpecial⟩

/-- C35: if the special times of each label are unique, the overridden open or close is that time. -/
theorem c35_override_exact (h : build cfg start stop = .ok b) (hwf : WellFormed cfg start)
    (hf : SpecialsFit cfg start stop) :
    ∀ s ∈ rowsOf b.cal,
      (∀ u, SpecialOpen cfg start stop s.label u → s.open = u) ∧
      (∀ u, SpecialClose cfg start stop s.label u → s.close = u) :=
  fun s hs => ⟨fun u hu => hf.openUnique _ _ _ ((c35_override h hwf s hs).1 u hu) hu,
    fun u hu => hf.closeUnique _ _ _ ((c35_override h hwf s hs).2 u hu) hu⟩

example : build demoConfig 0 (14 * DAY) = .ok demoBuilt ∧ WellFormed demoConfig 0 ∧
    SpecialsFit demoConfig 0 (14 * DAY) := ⟨demo_build, demo_wf, demo_fit⟩

/-- C35: every applied special time names a session of the calendar that was built; so a special time
for another day is never applied to a session. -/
theorem c35_special_is_session (h : build cfg start stop = .ok b) (ho : Ordered cfg)
    (hz : Tame cfg.tz) (hm : DAY ∣ start) (hlow : NP_NAT + 3 * DAY ≤ start) :
    ∀ l u, SpecialOpen cfg start stop l u ∨ SpecialClose cfg start stop l u →
      l ∈ b.cal.sessions := by
  obtain ⟨_, _, _, _, _, _, _, _, hin⟩ := build_special_labels h ho hz hm hlow
  exact hin

/-- C35: a special time for a day that is not a session makes construction raise `ValueError`. -/
theorem c35_not_a_session (hwf : WellFormed cfg start) (hr : Readable cfg start stop) {l u : Int}
    (hu : SpecialOpen cfg start stop l u ∨ SpecialClose cfg start stop l u)
    (hl : ¬ SessionLabel cfg start stop l) :
    build cfg start stop = .error (.valueError "Special dates are not trading days.") := by
  unfold build
  simp only [schedule_fails hwf hr ⟨l, u, hu, hl⟩, bind, Except.bind]

/-- A 24/5 calendar with a special close on Saturday, day 2. -/
example : let cfg := { weekdayCalendar with specialClosesAdhoc := [(hm 12 0, [2 * DAY])] }
    WellFormed cfg 0 ∧ Readable cfg 0 (8 * DAY) ∧ SpecialClose cfg 0 (8 * DAY) (2 * DAY) (2 * DAY + hm 12 0) ∧
    ¬ SessionLabel cfg 0 (8 * DAY) (2 * DAY) := by
  intro cfg
  refine ⟨(ordered_of (by decide)).wellFormed (tame_of (by decide)) (by decide) (by decide),
    fixed_readable rfl (by decide) _ _, ?_, ?_⟩
  · exact ⟨hm 12 0, Or.inr ⟨[2 * DAY], by decide, by decide⟩, (fixed_only 0 _ _).mpr rfl, by decide,
      by decide⟩
  · rintro ⟨d, hd, h1, h2, ht⟩
    rw [← isBusinessDay_iff] at ht
    have : d = 2 := by simp only [DAY] at hd; omega
    subst this
    exact absurd ht (by decide)

/-- C35, deviation: the constructor keeps a special close only if its *instant* is in `[start, end]`.
When `end` is a midnight, as all defaults are, the special close of the `end` session itself comes
after `end`: it is dropped, the session keeps its standard close and its break. -/
theorem c35_dropped_on_end_date (h : build cfg start stop = .ok b) (hwf : WellFormed cfg start) :
    ∀ s ∈ rowsOf b.cal,
      (∀ t u, SpecialTime cfg.specialCloses cfg.specialClosesAdhoc start stop s.label t →
        OnlyInstant cfg.tz (s.label + t) u → stop < u) →
      ∃ t, TimeInEffect cfg.closeTimes s.label t ∧
        OnlyInstant cfg.tz (s.label + cfg.closeOffset * DAY + t) s.close := by
  intro s hs hlate
  refine (c34_standard_times h hwf s hs).2.1 ?_
  rintro u ⟨t, hst, hu, _, hle⟩
  have := hlate t u hst hu
  omega

/-- The 12:30 special close of day 14 is in `demoConfig`, but with `end` = day 14 the session closes at
16:00 (20:00 UTC) and the day is not an early close; with `end` = day 15 it is applied. -/
example : 14 * DAY ∈ (demoConfig.specialCloses.map fun c => c.2 0 (14 * DAY)).flatten ∧
    (build demoConfig 0 (14 * DAY)).toOption.map
      (fun b => (b.cal.closes.getLast?, b.earlyCloses)) =
      some (some (14 * DAY + hm 20 0), [7 * DAY, 12 * DAY]) ∧
    (build demoConfig 0 (15 * DAY)).toOption.map
      (fun b => (b.cal.closes.getD 8 0, b.earlyCloses)) =
      some (14 * DAY + hm 16 30, [7 * DAY, 12 * DAY, 14 * DAY]) := by decide +kernel

/-- C36: a session with an applied special close has no break; every other session of a calendar with
break tables has its break (see `c34_standard_times` for the times), a calendar without break tables has
no breaks; the columns have both ends of a break or neither. -/
theorem c36_breaks (h : build cfg start stop = .ok b) (hwf : WellFormed cfg start) :
    (∀ s ∈ rowsOf b.cal,
      (∀ u, SpecialClose cfg start stop s.label u → s.brk = none) ∧
      ((∀ u, ¬ SpecialClose cfg start stop s.label u) →
        (s.brk.isSome ↔ cfg.breakStartTimes.isSome) ∧
        (s.brk.isSome ↔ cfg.breakEndTimes.isSome))) ∧
    (∀ i (h1 : i < b.cal.breakStarts.length) (h2 : i < b.cal.breakEnds.length),
      b.cal.breakStarts[i] = NP_NAT ↔ b.cal.breakEnds[i] = NP_NAT) := by
  refine ⟨fun s hs => ?_, fun i h1 h2 => ?_⟩
  · have f := row_facts h hwf s hs
    refine ⟨f.brkSpecial, fun hno => ?_⟩
    have hb := f.brkBoth hno
    have key : s.brk.isSome ↔ cfg.breakStartTimes.isSome := by
      cases hbs : cfg.breakStartTimes with
      | none => rw [f.brkNone hbs]; simp
      | some bt =>
        obtain ⟨et, het⟩ := Option.isSome_iff_exists.mp (hb.mp (by rw [hbs]; rfl))
        obtain ⟨x, y, hxy, _⟩ := f.brkStandard hno bt et hbs het
        rw [hxy]; simp
    exact ⟨key, key.trans hb⟩
  · obtain ⟨sch, hs, hc, _⟩ := build_parts h
    obtain ⟨_, _, _, _, _, _, _, _, _, _, _, _, _, _, _, _, _, _, _, _, _, _, hchk, _⟩ :=
      schedule_parts hs
    rw [← hc] at hchk
    exact checkBreaksMatch_ok hchk h1 h2

example : SpecialClose demoConfig 0 (14 * DAY) (7 * DAY) (7 * DAY + hm 17 30) ∧
    (rowsOf demoBuilt.cal).map (·.brk.isSome)
      = [true, true, true, false, true, true, false, true, true] := by
  refine ⟨⟨hm 12 30, Or.inl ⟨_, List.mem_cons_self, by decide⟩, ?_, by decide, by decide⟩,
    by decide +kernel⟩
  rw [← localize_ok_iff demo_tame]
  decide +kernel

/-! ## C37: wall-clock times -/

/-- C37: `days_at_time` succeeds with `us` exactly if each of `us` is the one and only instant at which
clocks in the zone read time `t` on the corresponding day shifted by `k` days. -/
theorem c37_days_at_time {z : Tz} (hz : Tame z) (days us : List Int) (t k : Int) :
    daysAtTime days t z k = .ok us ↔
      us.length = days.length ∧
      ∀ i (h1 : i < days.length) (h2 : i < us.length),
        OnlyInstant z (days[i] + k * DAY + t) us[i] := by
  unfold daysAtTime
  simp only [mapM_ok_iff, localize_ok_iff hz, Int.add_assoc]

/-- C37: a wall-clock time that does not exist, or exists twice, makes `days_at_time` raise. -/
theorem c37_raises {z : Tz} (hz : Tame z) (days : List Int) (t k : Int) {d : Int} (hd : d ∈ days)
    (hbad : (∀ u, ¬ Reads z u (d + k * DAY + t)) ∨
      ∃ u u', u ≠ u' ∧ Reads z u (d + k * DAY + t) ∧ Reads z u' (d + k * DAY + t)) :
    ∃ e, daysAtTime days t z k = .error e ∧ (e = .nonExistentTime ∨ e = .ambiguousTime) := by
  have hno : ∀ u, ¬ OnlyInstant z (d + k * DAY + t) u := by
    rintro u ⟨hu, huniq⟩
    rcases hbad with h | ⟨v, v', hne, hv, hv'⟩
    · exact h u hu
    · exact hne ((huniq v hv).trans (huniq v' hv').symm)
  have herr : ∀ w e, z.localize w = .error e → e = .nonExistentTime ∨ e = .ambiguousTime := by
    intro w e he
    unfold Tz.localize at he
    simp only at he
    split at he
    · split at he
      · cases he
      · cases he; exact Or.inr rfl
    · split at he
      · cases he
      · split at he
        · cases he
        · cases he; exact Or.inl rfl
  unfold daysAtTime
  simp only
  induction days with
  | nil => cases hd
  | cons x xs ih =>
    rw [List.mapM_cons]
    cases hx : z.localize (x + (k * DAY + t)) with
    | error e => exact ⟨e, rfl, herr _ _ hx⟩
    | ok v =>
      rcases List.mem_cons.mp hd with rfl | hd
      · rw [localize_ok_iff hz, ← Int.add_assoc] at hx
        exact absurd hx (hno v)
      · obtain ⟨e, he, hk⟩ := ih hd
        refine ⟨e, ?_, hk⟩
        simp only [he, bind, Except.bind]

/-- C37: later wall-clock times are later instants, also across DST changes. -/
theorem c37_monotone {z : Tz} (hz : Tame z) {w w' u u' : Int} (hu : OnlyInstant z w u)
    (hu' : OnlyInstant z w' u') : w < w' ↔ u < u' := by
  constructor
  · exact only_lt hz hu hu'
  · intro h
    rcases Int.lt_trichotomy w w' with h1 | rfl | h1
    · exact h1
    · have := hu'.2 u hu.1; omega
    · have := only_lt hz hu' hu h1; omega

/-- Across the DST change of `demoZone` 9:31 is 14:31 UTC before and 13:31 UTC after; 2:30 on the day of
the change does not exist, 1:30 on day 200 exists twice. -/
example : Tame demoZone ∧
    daysAtTime [9 * DAY, 11 * DAY] (hm 9 31) demoZone = .ok [9 * DAY + hm 14 31, 11 * DAY + hm 13 31] ∧
    daysAtTime [10 * DAY] (hm 2 30) demoZone = .error .nonExistentTime ∧
    daysAtTime [200 * DAY] (hm 1 30) demoZone = .error .ambiguousTime :=
  ⟨demo_tame, by decide +kernel, by decide +kernel, by decide +kernel⟩

/-! ## C38: built calendars are regular -/

/-- C38: for every configuration with ordered wall-clock times and every well-behaved zone, a built
calendar is a non-empty list of ordered, non-overlapping sessions with breaks inside, open strictly
before close: the hypotheses of the query theorems C12-C32. -/
theorem c38_regular (h : build cfg start stop = .ok b) (ho : Ordered cfg) (hz : Tame cfg.tz)
    (hm : DAY ∣ start) (hlow : NP_NAT + 3 * DAY ≤ start) :
    b.cal = Cal.ofSessions (rowsOf b.cal) ∧ rowsOf b.cal ≠ [] ∧
    (∀ s ∈ rowsOf b.cal, s.open < s.close ∧
      ∀ x y, s.brk = some (x, y) → s.open < x ∧ x < y ∧ y ≤ s.close) ∧
    (rowsOf b.cal).Pairwise (fun s s' => s.label < s'.label ∧ s.close < s'.open) ∧
    Regular (rowsOf b.cal) := by
  have hne := build_rows_ne h
  obtain ⟨sch, hs, hc, _⟩ := build_parts h
  obtain ⟨hreg, hoc, _⟩ := schedule_regular hs ho hz hm hlow
  have hof := (schedule_rows hs (ho.wellFormed hz hm hlow)).1
  rw [hc] at hne ⊢
  exact ⟨hof.symm, hne, fun s hs => ⟨hoc s hs, (hreg.ok s hs).2.2⟩,
    hreg.labels.and hreg.times, hreg⟩

/-- C38: if moreover all configured times and zone offsets are whole minutes, so are all times of the
schedule. -/
theorem c38_whole_minutes (h : build cfg start stop = .ok b) (ho : Ordered cfg) (hz : Tame cfg.tz)
    (hm : DAY ∣ start) (hlow : NP_NAT + 3 * DAY ≤ start) (hwz : WholeMinuteZone cfg.tz)
    (hwt : WholeMinuteTimes cfg) : ∀ s ∈ rowsOf b.cal, s.WholeMinutes := by
  obtain ⟨sch, hs, hc, _⟩ := build_parts h
  rw [hc]
  exact (schedule_regular hs ho hz hm hlow).2.2 hwz hwt

/-- C38: construction succeeds whenever the range contains a trading day, every clock reading needed is
unambiguous, and the special times fall on sessions. -/
theorem c38_succeeds (ho : Ordered cfg) (hz : Tame cfg.tz) (hm : DAY ∣ start)
    (hlow : NP_NAT + 3 * DAY ≤ start) (hr : Readable cfg start stop)
    (hf : SpecialsFit cfg start stop) (hne : ∃ l, SessionLabel cfg start stop l) :
    ∃ b, build cfg start stop = .ok b :=
  build_succeeds ho hz hm hlow hr hf hne

example : build demoConfig 0 (14 * DAY) = .ok demoBuilt ∧ Ordered demoConfig ∧ Tame demoConfig.tz ∧
    DAY ∣ (0 : Int) ∧ NP_NAT + 3 * DAY ≤ 0 ∧ WholeMinuteZone demoConfig.tz ∧
    WholeMinuteTimes demoConfig :=
  ⟨demo_build, demo_ordered, demo_tame, by decide, by decide, demo_whole_zone, demo_whole_times⟩

example : Readable demoConfig 0 (14 * DAY) ∧ SpecialsFit demoConfig 0 (14 * DAY) ∧
    ∃ l, SessionLabel demoConfig 0 (14 * DAY) l :=
  ⟨demo_readable, demo_fit, 4 * DAY, (sessionLabel_iff (by decide) _ _).mpr (by decide +kernel)⟩

/-! ## C41: early closes and late opens -/

/-- C41: `early_closes` (`late_opens`) lists, in order, exactly the labels with an applied special close
(open); all of them are sessions. -/
theorem c41_lists (h : build cfg start stop = .ok b) (ho : Ordered cfg) (hz : Tame cfg.tz)
    (hm : DAY ∣ start) (hlow : NP_NAT + 3 * DAY ≤ start) :
    b.lateOpens.Pairwise (· ≤ ·) ∧ b.earlyCloses.Pairwise (· ≤ ·) ∧
    (∀ l, l ∈ b.lateOpens ↔ l ∈ b.cal.sessions ∧ ∃ u, SpecialOpen cfg start stop l u) ∧
    (∀ l, l ∈ b.earlyCloses ↔ l ∈ b.cal.sessions ∧ ∃ u, SpecialClose cfg start stop l u) := by
  obtain ⟨so, sc, h1, h2, h3, h4, h5, h6, h7⟩ := build_special_labels h ho hz hm hlow
  rw [h1, h2, List.pairwise_map, List.pairwise_map]
  refine ⟨h3, h4, fun l => ?_, fun l => ?_⟩
  · constructor
    · intro hl
      obtain ⟨⟨l', u⟩, he, rfl⟩ := List.mem_map.mp hl
      exact ⟨h7 _ u (Or.inl ((h5 _ _).mp he)), u, (h5 _ _).mp he⟩
    · rintro ⟨_, u, hu⟩
      exact List.mem_map.mpr ⟨(l, u), (h5 _ _).mpr hu, rfl⟩
  · constructor
    · intro hl
      obtain ⟨⟨l', u⟩, he, rfl⟩ := List.mem_map.mp hl
      exact ⟨h7 _ u (Or.inr ((h6 _ _).mp he)), u, (h6 _ _).mp he⟩
    · rintro ⟨_, u, hu⟩
      exact List.mem_map.mpr ⟨(l, u), (h6 _ _).mpr hu, rfl⟩

example : demoBuilt.earlyCloses = [7 * DAY, 12 * DAY] ∧ demoBuilt.lateOpens = [] ∧
    build demoConfig 0 (14 * DAY) = .ok demoBuilt ∧ Ordered demoConfig ∧ Tame demoConfig.tz :=
  ⟨rfl, rfl, demo_build, demo_ordered, demo_tame⟩

/-! ## C39: 24/7 and 24/5 -/

theorem utc_build {cfg : Config} (htz : cfg.tz = utc) (ho : cfg.openTimes = [(none, hm 0 0)])
    (hc : cfg.closeTimes = [(none, hm 23 59)]) (hb1 : cfg.breakStartTimes = none)
    (hb2 : cfg.breakEndTimes = none) (hoo : cfg.openOffset = 0) (hco : cfg.closeOffset = 0)
    (hso : cfg.specialOpens = [] ∧ cfg.specialOpensAdhoc = [])
    (hsc : cfg.specialCloses = [] ∧ cfg.specialClosesAdhoc = [])
    (hmid : DAY ∣ start) (hlow : NP_NAT + 3 * DAY ≤ start)
    (hne : ∃ l, SessionLabel cfg start stop l) :
    ∃ b, build cfg start stop = .ok b ∧
      (∀ t, ∃ r, b.cal.isOpenOnMinute t = .ok r ∧
        (r = true ↔ ∃ l, SessionLabel cfg start stop l ∧ l ≤ t ∧ t ≤ l + hm 23 59)) ∧
      b.cal = Cal.ofSessions (rowsOf b.cal) ∧ Regular (rowsOf b.cal) ∧
      (∀ l, l ∈ (rowsOf b.cal).map (·.label) ↔ SessionLabel cfg start stop l) ∧
      ∀ s ∈ rowsOf b.cal, s.open = s.label ∧ s.close = s.label + hm 23 59 ∧ s.brk = none := by
  have hnoo : ∀ l u, ¬ SpecialOpen cfg start stop l u := by
    rintro l u ⟨t, h, _⟩
    rw [hso.1, hso.2] at h
    rcases h with ⟨_, h, _⟩ | ⟨_, h, _⟩ <;> simp at h
  have hnoc : ∀ l u, ¬ SpecialClose cfg start stop l u := by
    rintro l u ⟨t, h, _⟩
    rw [hsc.1, hsc.2] at h
    rcases h with ⟨_, h, _⟩ | ⟨_, h, _⟩ <;> simp at h
  have hord : Ordered cfg := by
    apply ordered_of
    unfold orderedB openWalls closeWalls standardCloseWalls tableTimes
    rw [ho, hc, hb1, hb2, hoo, hco, hso.1, hso.2, hsc.1, hsc.2]
    decide
  have hz : Tame cfg.tz := by rw [htz]; exact tame_of (by decide)
  obtain ⟨b, hb⟩ := build_succeeds hord hz hmid hlow
    (fixed_readable (base := 0) htz (by rw [hb1, hb2]) start stop)
    ⟨fun l u h => h.elim (fun h => absurd h (hnoo l u)) (fun h => absurd h (hnoc l u)),
     fun l u u' h => absurd h (hnoo l u), fun l u u' h => absurd h (hnoc l u)⟩ hne
  obtain ⟨hof, _, _, _, hreg⟩ := c38_regular hb hord hz hmid hlow
  have hwf := hord.wellFormed hz hmid hlow
  have hrow : ∀ s ∈ rowsOf b.cal, s.open = s.label ∧ s.close = s.label + hm 23 59 ∧
      s.brk = none := by
    intro s hs
    have f := row_facts hb hwf s hs
    obtain ⟨t1, h1, h2⟩ := f.openStandard (hnoo _)
    obtain ⟨t2, h3, h4⟩ := f.closeStandard (hnoc _)
    have e1 := TimeInEffect.mem h1
    have e2 := TimeInEffect.mem h3
    rw [ho] at e1
    rw [hc] at e2
    rw [htz] at h2 h4
    have e1' : hm 0 0 = t1 := by simpa using e1
    have e2' : hm 23 59 = t2 := by simpa using e2
    subst e1' e2'
    have h2' := (fixed_only 0 _ _).mp h2
    have h4' := (fixed_only 0 _ _).mp h4
    rw [hoo] at h2'
    rw [hco] at h4'
    refine ⟨?_, ?_, f.brkNone hb1⟩
    · rw [h2']; simp [hm]
    · rw [h4']; omega
  have hlab := (c34_rows hb hwf).2
  have hsess : ∀ l, l ∈ b.cal.sessions ↔ SessionLabel cfg start stop l := by
    obtain ⟨sch, hsch, hc', _⟩ := build_parts hb
    rw [hc']
    exact (schedule_labels hsch hmid).2
  refine ⟨b, hb, fun t => ?_, hof, hreg, fun l => by rw [hlab]; exact hsess l, hrow⟩
  obtain ⟨⟨r, hr, hiff⟩, _⟩ := c16_is_open_on_minute hreg t
  refine ⟨r, by rw [hof]; exact hr, hiff.trans ?_⟩
  constructor
  · rintro ⟨s, hs, hsp, _⟩
    obtain ⟨e1, e2, e3⟩ := hrow s hs
    refine ⟨s.label, (hsess _).mp (by rw [← hlab]; exact List.mem_map.mpr ⟨s, hs, rfl⟩), ?_, ?_⟩
    · rw [← e1]; exact hsp.1
    · rw [← e2]; exact hsp.2
  · rintro ⟨l, hl, h1, h2⟩
    have := (hsess l).mpr hl
    rw [← hlab] at this
    obtain ⟨s, hs, rfl⟩ := List.mem_map.mp this
    obtain ⟨e1, e2, e3⟩ := hrow s hs
    refine ⟨s, hs, ⟨by rw [e1]; exact h1, by rw [e2]; exact h2⟩, ?_⟩
    rintro ⟨x, y, hxy, _⟩
    rw [e3] at hxy; cases hxy

/-- C39: for every midnight `start` and every `end ≥ start` the 24/7 calendar can be built, and is open
at a whole minute `t` exactly if `t` is not before `start` and its day does not begin after `end`. -/
theorem c39_always_open (hmid : DAY ∣ start) (hlow : NP_NAT + 3 * DAY ≤ start) (hle : start ≤ stop) :
    ∃ b, build alwaysOpen start stop = .ok b ∧
      ∀ t, MINUTE ∣ t → ∃ r, b.cal.isOpenOnMinute t = .ok r ∧
        (r = true ↔ start ≤ t ∧ t / DAY * DAY ≤ stop) := by
  have hday : ∀ l, SessionLabel alwaysOpen start stop l ↔
      ∃ d, l = d * DAY ∧ start ≤ l ∧ l ≤ stop := by
    intro l
    constructor
    · rintro ⟨d, h1, h2, h3, _⟩; exact ⟨d, h1, h2, h3⟩
    · rintro ⟨d, h1, h2, h3⟩
      refine ⟨d, h1, h2, h3, (isBusinessDay_iff _ _).mp rfl⟩
  obtain ⟨k, hk⟩ := hmid
  obtain ⟨b, hb, hopen, -⟩ := utc_build (cfg := alwaysOpen) (start := start) (stop := stop) rfl rfl rfl rfl rfl
    rfl rfl ⟨rfl, rfl⟩ ⟨rfl, rfl⟩ ⟨k, hk⟩ hlow
    ⟨start, (hday _).mpr ⟨k, by rw [hk, Int.mul_comm], Int.le_refl _, hle⟩⟩
  refine ⟨b, hb, fun t ht => ?_⟩
  obtain ⟨r, hr, hiff⟩ := hopen t
  refine ⟨r, hr, hiff.trans ?_⟩
  simp only [hday]
  constructor
  · rintro ⟨_, ⟨d, rfl, h2, h3⟩, h4, h5⟩
    simp only [DAY, hm] at *
    constructor <;> omega
  · rintro ⟨h1, h2⟩
    refine ⟨t / DAY * DAY, ⟨t / DAY, rfl, ?_, h2⟩, ?_, ?_⟩
    · simp only [DAY] at *; omega
    · simp only [DAY] at *; omega
    · obtain ⟨j, rfl⟩ := ht
      simp only [DAY, MINUTE, hm] at *
      omega

/-- C39: the 24/5 calendar is open at a whole minute exactly if the minute's day is a Monday to Friday
(weekday 0 to 4) of the range. -/
theorem c39_weekdays (hmid : DAY ∣ start) (hlow : NP_NAT + 3 * DAY ≤ start)
    (hne : ∃ d w, start ≤ d * DAY ∧ d * DAY ≤ stop ∧ IsWeekday d w ∧ w ≤ 4) :
    ∃ b, build weekdayCalendar start stop = .ok b ∧
      ∀ t, MINUTE ∣ t → ∃ r, b.cal.isOpenOnMinute t = .ok r ∧
        (r = true ↔ start ≤ t ∧ t / DAY * DAY ≤ stop ∧ ∃ w, IsWeekday (t / DAY) w ∧ w ≤ 4) := by
  have hday : ∀ l, SessionLabel weekdayCalendar start stop l ↔
      ∃ d, l = d * DAY ∧ start ≤ l ∧ l ≤ stop ∧ ∃ w, IsWeekday d w ∧ w ≤ 4 := by
    intro l
    have key : ∀ d, TradingDay weekdayCalendar d ↔ ∃ w, IsWeekday d w ∧ w ≤ 4 := by
      intro d
      unfold TradingDay
      constructor
      · rintro ⟨⟨w, hw, hm⟩, _⟩
        have : w < 5 := by simpa [weekdayCalendar] using hm
        exact ⟨w, hw, by omega⟩
      · rintro ⟨w, hw, hm⟩
        refine ⟨⟨w, hw, ?_⟩, by simp [weekdayCalendar], by simp [weekdayCalendar]⟩
        simp only [weekdayCalendar, decide_eq_true_eq]
        omega
    unfold SessionLabel
    simp only [key]
  obtain ⟨b, hb, hopen, -⟩ := utc_build (cfg := weekdayCalendar) (start := start) (stop := stop) rfl rfl rfl rfl rfl
    rfl rfl ⟨rfl, rfl⟩ ⟨rfl, rfl⟩ hmid hlow (by
      obtain ⟨d, w, h1, h2, h3, h4⟩ := hne
      exact ⟨d * DAY, (hday _).mpr ⟨d, rfl, h1, h2, w, h3, h4⟩⟩)
  obtain ⟨k, hk⟩ := hmid
  refine ⟨b, hb, fun t ht => ?_⟩
  obtain ⟨r, hr, hiff⟩ := hopen t
  refine ⟨r, hr, hiff.trans ?_⟩
  simp only [hday]
  constructor
  · rintro ⟨_, ⟨d, rfl, h2, h3, hw⟩, h4, h5⟩
    have : t / DAY = d := by simp only [DAY, hm] at *; omega
    rw [this]
    exact ⟨by omega, h3, hw⟩
  · rintro ⟨h1, h2, hw⟩
    refine ⟨t / DAY * DAY, ⟨t / DAY, rfl, ?_, h2, hw⟩, ?_, ?_⟩
    · simp only [DAY] at *; omega
    · simp only [DAY] at *; omega
    · obtain ⟨j, rfl⟩ := ht
      simp only [DAY, MINUTE, hm] at *
      omega

/-- Friday 1970-01-02 to Monday 1970-01-05. -/
example : DAY ∣ 1 * DAY ∧ NP_NAT + 3 * DAY ≤ 1 * DAY ∧ 1 * DAY ≤ 4 * DAY ∧
    (∃ d w, 1 * DAY ≤ d * DAY ∧ d * DAY ≤ 4 * DAY ∧ IsWeekday d w ∧ w ≤ 4) ∧
    (build weekdayCalendar (1 * DAY) (4 * DAY)).toOption.map (fun b => b.cal.sessions)
      = some [1 * DAY, 4 * DAY] ∧
    (build alwaysOpen (1 * DAY) (4 * DAY)).toOption.map (fun b => b.cal.sessions.length) = some 4 := by
  refine ⟨by decide, by decide, by decide, ⟨1, 4, by decide, by decide, ?_, by decide⟩,
    by decide +kernel, by decide +kernel⟩
  exact (weekday_iff 1 4).mpr (by decide)

end TC.Props
