import Verif.Lemmas.Machine
import Verif.Props.Build

/-!
# C80: nothing overflows

A calendar whose range stays four days away from the ends of what int64 nanoseconds express is the same
whether it is computed with int64 and float64 or with unbounded integers.
-/

namespace TC.Props
open Spec

variable {M : Machine} {cfg : Config} {start stop : Int} {b : Built}

theorem wrap64_eq {x : Int} (h : FitsInt64 x) : wrap64 x = x := by
  unfold wrap64
  obtain ⟨h1, h2⟩ := h
  omega

theorem checked64_eq {x : Int} (h : FitsInt64 x) : checked64 x = .ok x := if_pos h

theorem roundFloat_eq {x : Int} (h : FitsFloat x) : roundFloat x = x := by
  obtain ⟨h1, h2⟩ := h
  exact if_pos (by omega)

/-- Both machines, the one that wraps around and the one that raises, are exact where results fit. -/
theorem wrapping_exact : Exact wrapping where
  lit _ h := congrArg Except.ok (wrap64_eq h)
  add _ _ _ _ h := congrArg Except.ok (wrap64_eq h)
  sub _ _ _ _ h := congrArg Except.ok (wrap64_eq h)
  mul _ _ _ _ h := congrArg Except.ok (wrap64_eq h)
  fadd _ _ _ _ h := congrArg Except.ok (roundFloat_eq h)

theorem checking_exact : Exact checking where
  lit _ h := checked64_eq h
  add _ _ _ _ h := checked64_eq h
  sub _ _ _ _ h := checked64_eq h
  mul _ _ _ _ h := checked64_eq h
  fadd _ _ _ _ h := congrArg Except.ok (roundFloat_eq h)

/-- C80: both numpy's arithmetic, which wraps around, and pandas' checked arithmetic, which raises, are machines that
the theorems below are about. -/
theorem c80_machines : Exact wrapping ∧ Exact checking := ⟨wrapping_exact, checking_exact⟩

/-- They differ from each other and from unbounded integers where results do not fit. -/
example : wrapping.add 9223372036854775807 1 = .ok (-9223372036854775808) ∧
    checking.add 9223372036854775807 1 = .error (.valueError "Overflow in int64 addition") ∧
    wrapping.fadd 9007199254740992 1 = .ok 9007199254740992 := by decide +kernel

/-- The decidable check behind `NearTimes`. -/
def nearTimesB (cfg : Config) : Bool :=
  (openWalls cfg ++ closeWalls cfg ++ tableTimes cfg.breakStartTimes ++ tableTimes cfg.breakEndTimes).all
    fun w => decide (-DAY ≤ w) && decide (w ≤ 2 * DAY)

theorem nearTimes_of (h : nearTimesB cfg = true) : NearTimes cfg := by
  unfold nearTimesB at h
  simp only [List.all_eq_true, List.mem_append, Bool.and_eq_true, decide_eq_true_eq] at h
  exact ⟨fun o ho => h o (.inl (.inl (.inl ((openWall_iff _ _).1 ho)))),
    fun c hc => h c (.inl (.inl (.inr ((closeWall_iff _ _).1 hc)))),
    fun x hx => h x (.inl (.inr ((breakStartWall_iff _ _).1 hx))),
    fun x hx => h x (.inr ((breakEndWall_iff _ _).1 hx))⟩

/-- C80: a calendar constructed with machine arithmetic is the calendar constructed with unbounded integers, on
every machine that is exact where results fit. -/
theorem c80_build (hM : Exact M) (ho : Ordered cfg) (hz : Tame cfg.tz) (hn : NearTimes cfg)
    (hd : DatesInside cfg) (h1 : InsideInt64 start) (h2 : InsideInt64 stop) :
    buildM M cfg start stop = build cfg start stop :=
  buildM_eq hM ho hz hn hd h1 h2

theorem demo_near : NearTimes demoConfig := nearTimes_of (by decide +kernel)

theorem demo_inside : DatesInside demoConfig := by
  have hD : DAY = 86400000000000 := rfl
  rintro s e l t h1 h2 ((⟨cal, h, -⟩ | ⟨ds, h, -⟩) | ⟨cal, h, hl⟩ | ⟨ds, h, hl⟩)
  · simp [demoConfig] at h
  · simp [demoConfig] at h
  · simp only [demoConfig, List.mem_singleton, Prod.mk.injEq] at h
    obtain ⟨-, rfl⟩ := h
    have := (List.mem_filter.1 hl).2
    simp only [Bool.and_eq_true, decide_eq_true_eq] at this
    exact ⟨Int.le_trans h1.1 this.1, Int.le_trans this.2 h2.2⟩
  · simp only [demoConfig, List.mem_singleton, Prod.mk.injEq] at h
    obtain ⟨-, rfl⟩ := h
    simp only [List.mem_cons, List.not_mem_nil, or_false] at hl
    unfold InsideInt64
    omega

/-- The demo configuration, which has all kinds of tables, on a machine that wraps around. -/
example : Exact wrapping ∧ Ordered demoConfig ∧ Tame demoConfig.tz ∧ NearTimes demoConfig ∧
    DatesInside demoConfig ∧ InsideInt64 0 ∧ InsideInt64 (14 * DAY) ∧
    buildM wrapping demoConfig 0 (14 * DAY) = .ok demoBuilt :=
  have h0 : InsideInt64 0 := by unfold InsideInt64; decide
  have h1 : InsideInt64 (14 * DAY) := by unfold InsideInt64; decide
  ⟨wrapping_exact, demo_ordered, demo_tame, demo_near, demo_inside, h0, h1,
    (c80_build wrapping_exact demo_ordered demo_tame demo_near demo_inside h0 h1).trans demo_build⟩

/-- The condition on the range is needed: within a day of the last instant, the closing time of the last day
wraps around to the year 1677 on one machine, and cannot be computed on the other. -/
example :
    (buildScheduleM wrapping weekdayCalendar (106751 * DAY) (106751 * DAY)).toOption.map
      (fun s => (s.cal.opens, s.cal.closes)) =
      some ([106751 * DAY], [106751 * DAY + hm 23 59 - 18446744073709551616]) ∧
    (buildScheduleM checking weekdayCalendar (106751 * DAY) (106751 * DAY)).toOption.isNone = true ∧
    (buildSchedule weekdayCalendar (106751 * DAY) (106751 * DAY)).toOption.map
      (fun s => (s.cal.opens, s.cal.closes)) =
      some ([106751 * DAY], [106751 * DAY + hm 23 59]) := by
  refine ⟨?_, ?_, ?_⟩ <;> decide +kernel

/-- C80: every label, open, close and break of the calendar is an int64, and none of them is the one that pandas
reads as `NaT`. -/
theorem c80_values (ho : Ordered cfg) (hz : Tame cfg.tz) (hn : NearTimes cfg) (h1 : InsideInt64 start)
    (h2 : InsideInt64 stop) (h : build cfg start stop = .ok b) :
    b.cal = Cal.ofSessions (rowsOf b.cal) ∧
    ∀ s ∈ rowsOf b.cal, ∀ u, (u = s.label ∨ u = s.open ∨ u = s.close ∨
      ∃ x y, s.brk = some (x, y) ∧ (u = x ∨ u = y)) → FitsInt64 u ∧ u ≠ NP_NAT := by
  have hD : DAY = 86400000000000 := rfl
  have hlow : NP_NAT + 3 * DAY ≤ start := by have := h1.1; simp only [NP_NAT]; omega
  obtain ⟨sch, hs, hc, -⟩ := build_parts h
  have hof := (schedule_rows_any hs (ho.tablesFit hz hlow)).1
  have hrows := rows_modest hs ho hz hn h1 h2
  rw [hc]
  refine ⟨hof.symm, fun s hm u hu => ?_⟩
  have hmod := hrows s hm
  have hl : s.label ∈ sch.cal.sessions := by
    rw [← hof]
    exact List.mem_map.2 ⟨s, hm, rfl⟩
  have hin := ((schedule_labels_any hs).2 s.label).1 hl
  obtain ⟨d, -, hlo, hhi, -⟩ := hin
  have ha := h1.1
  have hb := h2.2
  have e1 := hmod.open_
  have e2 := hmod.close
  simp only [NP_NAT, FitsInt64]
  rcases hu with rfl | rfl | rfl | ⟨x, y, hxy, rfl | rfl⟩
  · omega
  · omega
  · omega
  · have := hmod.brk _ _ hxy; omega
  · have := hmod.brk _ _ hxy; omega

/-- The first session of the demo calendar, with its break. -/
example : build demoConfig 0 (14 * DAY) = .ok demoBuilt ∧
    (rowsOf demoBuilt.cal).head? = some ⟨0, hm 14 31, some (hm 17 1, hm 18 0), hm 21 0⟩ :=
  ⟨demo_build, by decide +kernel⟩

/-- C80: the trading minutes of the calendar are the same too. -/
theorem c80_minutes (hM : Exact M) (ho : Ordered cfg) (hz : Tame cfg.tz) (hn : NearTimes cfg)
    (h1 : InsideInt64 start) (h2 : InsideInt64 stop) (h : build cfg start stop = .ok b) :
    computeAllMinutesM M b.cal.opens b.cal.breakStarts b.cal.breakEnds b.cal.closes =
      computeAllMinutes b.cal.opens b.cal.breakStarts b.cal.breakEnds b.cal.closes := by
  have hD : DAY = 86400000000000 := rfl
  have hlow : NP_NAT + 3 * DAY ≤ start := by have := h1.1; simp only [NP_NAT]; omega
  obtain ⟨sch, hs, hc, -⟩ := build_parts h
  have hof := (schedule_rows_any hs (ho.tablesFit hz hlow)).1
  have hm := minutePiecesM_eq hM (rows_modest hs ho hz hn h1 h2)
  rw [hof] at hm
  rw [hc]
  simp only [computeAllMinutesM, computeAllMinutes]
  rw [hm]
  rfl

/-- Minutes with a break: three before and two after. -/
example : computeAllMinutesM wrapping [hm 9 0] [hm 9 2] [hm 10 0] [hm 10 1] =
    .ok [hm 9 0, hm 9 1, hm 9 2, hm 10 0, hm 10 1] := by decide +kernel

/-- C80: counting minutes in float64 is exact: the sum never reaches 2^53, above which float64 skips integers. -/
theorem c80_count (hM : Exact M) (ho : Ordered cfg) (hz : Tame cfg.tz) (hn : NearTimes cfg)
    (hwz : WholeMinuteZone cfg.tz) (hwt : WholeMinuteTimes cfg) (h1 : InsideInt64 start) (h2 : InsideInt64 stop)
    (hm : MINUTE ∣ start) (h : build cfg start stop = .ok b) (a e : Int) :
    minutesCountM M b.cal a e = .ok (b.cal.minutesCountForSessionsInRange a e) := by
  have hD : DAY = 86400000000000 := rfl
  have hlow : NP_NAT + 3 * DAY ≤ start := by have := h1.1; simp only [NP_NAT]; omega
  obtain ⟨sch, hs, hc, -⟩ := build_parts h
  have hof := (schedule_rows_any hs (ho.tablesFit hz hlow)).1
  obtain ⟨hreg, -, hw⟩ := schedule_regular_any hs ho hz hlow
  rw [hc, ← hof]
  exact minutesCountM_eq hM (rows_modest hs ho hz hn h1 h2) hreg (hw hm hwz hwt) a e

/-- The nine sessions of the demo calendar have 2557 minutes, counted on a machine that wraps and rounds. -/
example : WholeMinuteZone demoConfig.tz ∧ WholeMinuteTimes demoConfig ∧ MINUTE ∣ (0 : Int) ∧
    minutesCountM wrapping demoBuilt.cal 0 (14 * DAY) =
      .ok (demoBuilt.cal.minutesCountForSessionsInRange 0 (14 * DAY)) ∧
    demoBuilt.cal.minutesCountForSessionsInRange 0 (14 * DAY) = 2557 :=
  ⟨demo_whole_zone, demo_whole_times, by decide, by decide +kernel, by decide +kernel⟩

end TC.Props
