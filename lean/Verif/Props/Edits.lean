import Verif.Lemmas.Edits
import Verif.Props.Overlap
import Verif.Props.StartTime

/-!
# C81: changes to a class have local effects

A maintainer adds a holiday, an early close, or new trading hours to a class.  The calendars constructed before and
after the change differ at the dates concerned and nowhere else.
-/

namespace TC.Props
open Spec

variable {cfg cfg' : Config} {start stop lo hi : Int} {b b' : Built}

theorem steady_withDays (h : Steady cfg) (wm : Int → Bool) (rh : Option HolidayFn) (ah : List Int) :
    Steady (withDays cfg wm rh ah) :=
  ⟨⟨h.ordered.openTable, h.ordered.closeTable, h.ordered.breakStartTable, h.ordered.breakEndTable,
      h.ordered.openLow, h.ordered.openClose, h.ordered.openBreak, h.ordered.breaks, h.ordered.breakClose⟩,
    h.tame, h.zoneMinutes, ⟨h.timeMinutes.opens, h.timeMinutes.closes, h.timeMinutes.breakStarts,
      h.timeMinutes.breakEnds⟩,
    ⟨h.special.opens, h.special.closes, h.special.openUnique, h.special.closeUnique⟩, h.openHigh⟩

theorem sameAt_withDays (cfg : Config) (wm : Int → Bool) (rh : Option HolidayFn) (ah : List Int)
    (start stop l : Int) : SameAt cfg (withDays cfg wm rh ah) start stop l := by
  constructor
  case breakStarts => exact fun _ _ e e' t => by cases e.symm.trans e'; exact Iff.rfl
  case breakEnds => exact fun _ _ e e' t => by cases e.symm.trans e'; exact Iff.rfl
  all_goals first | rfl | exact Iff.rfl | exact fun _ => Iff.rfl

theorem demo_steady : Steady demoConfig :=
  steady_of demo_ordered demo_tame oneSpecial_demo (by decide +kernel)

theorem demo_paired : PairedBreaks demoConfig := by simp [PairedBreaks, demoConfig]

theorem demo_special {s e l t : Int}
    (h : SpecialTime demoConfig.specialCloses demoConfig.specialClosesAdhoc s e l t) :
    l = 7 * DAY ∨ l = 14 * DAY ∨ l = 12 * DAY := by
  rcases h with ⟨cal, h, hl⟩ | ⟨ds, h, hl⟩
  · simp only [demoConfig, List.mem_singleton, Prod.mk.injEq] at h
    rw [h.2] at hl
    have := (List.mem_filter.1 hl).1
    simp only [List.mem_cons, List.not_mem_nil, or_false] at this
    exact this.elim .inl fun k => .inr (.inl k)
  · simp only [demoConfig, List.mem_singleton, Prod.mk.injEq] at h
    rw [h.2] at hl
    simp only [List.mem_cons, List.not_mem_nil, or_false] at hl
    exact .inr (.inr hl)

theorem demo_no_special {u : Int} : ¬ SpecialOpen demoConfig 0 (14 * DAY) (8 * DAY) u ∧
    ¬ SpecialClose demoConfig 0 (14 * DAY) (8 * DAY) u := by
  refine ⟨?_, ?_⟩
  · rintro ⟨t, ⟨cal, h, -⟩ | ⟨ds, h, -⟩, -⟩ <;> simp [demoConfig] at h
  · rintro ⟨t, h, -⟩
    rcases demo_special h with h | h | h <;> exact absurd h (by decide)

/-- C81: if two classes configure the same for a date, its session has the same times in both calendars. -/
theorem c81_row (h : Steady cfg) (h' : Steady cfg') (hb : build cfg start stop = .ok b)
    (hb' : build cfg' start stop = .ok b') (hm : DAY ∣ start) (hlow : NP_NAT + 3 * DAY ≤ start) {s s' : Session}
    (hs : s ∈ rowsOf b.cal) (hs' : s' ∈ rowsOf b'.cal) (hl : s.label = s'.label)
    (hsame : SameAt cfg cfg' start stop s.label) : s = s' :=
  row_of_edit h h' hb hb' hm hlow hs hs' hl hsame

/-- The demo class and the demo class with a holiday on day 8 configure the same times on day 11. -/
example : SameAt demoConfig (withHoliday demoConfig (8 * DAY)) 0 (14 * DAY) (11 * DAY) ∧
    Steady demoConfig ∧ Steady (withHoliday demoConfig (8 * DAY)) ∧
    build demoConfig 0 (14 * DAY) = .ok demoBuilt ∧
    (build (withHoliday demoConfig (8 * DAY)) 0 (14 * DAY)).toOption.map
      (fun b => (rowsOf b.cal)[4]?) = some (rowsOf demoBuilt.cal)[5]? ∧
    ((rowsOf demoBuilt.cal)[5]?.map (·.label)) = some (11 * DAY) :=
  ⟨sameAt_withDays _ _ _ _ _ _ _, demo_steady, steady_withDays demo_steady _ _ _, demo_build, by decide +kernel,
    by decide +kernel⟩

/-- C81: if two classes configure the same for all dates from `lo` to `hi`, their calendars agree on all of that
stretch but the first three and the last two days: the same answers to every query, the same early closes and late
opens. -/
theorem c81_local (h : Steady cfg) (h' : Steady cfg') (hb : build cfg start stop = .ok b)
    (hb' : build cfg' start stop = .ok b') (hm : DAY ∣ start) (hlow : NP_NAT + 3 * DAY ≤ start)
    (hd : ∀ d, lo ≤ d * DAY → d * DAY ≤ hi → (TradingDay cfg d ↔ TradingDay cfg' d))
    (hsame : ∀ l, lo ≤ l → l ≤ hi → SameAt cfg cfg' start stop l) :
    Agree b b' (lo + 3 * DAY) (hi - 2 * DAY) :=
  agree_of_edit h h' hb hb' hm hlow hd hsame

/-! ### closed days -/

/-- C81: closing a market on more days, by another weekmask or more holidays of any kind, removes the sessions of
these days and changes nothing else, provided none of them has a special time and a session is left. -/
theorem c81_closed_days (h : Steady cfg) (hpair : PairedBreaks cfg) (hb : build cfg start stop = .ok b)
    (hm : DAY ∣ start) (hlow : NP_NAT + 3 * DAY ≤ start) {wm : Int → Bool} {rh : Option HolidayFn} {ah : List Int}
    (hsub : ∀ d, TradingDay (withDays cfg wm rh ah) d → TradingDay cfg d)
    (hspecial : ∀ l u, SpecialOpen cfg start stop l u ∨ SpecialClose cfg start stop l u →
      SessionLabel (withDays cfg wm rh ah) start stop l)
    (hne : ∃ l, SessionLabel (withDays cfg wm rh ah) start stop l) :
    ∃ b', build (withDays cfg wm rh ah) start stop = .ok b' ∧
      (∀ s, s ∈ rowsOf b'.cal ↔ s ∈ rowsOf b.cal ∧ TradingDay (withDays cfg wm rh ah) (s.label / DAY)) ∧
      b'.cal = Cal.ofSessions (rowsOf b'.cal) ∧ Regular (rowsOf b'.cal) ∧
      (∀ l, l ∈ b'.earlyCloses ↔ l ∈ b.earlyCloses) ∧ ∀ l, l ∈ b'.lateOpens ↔ l ∈ b.lateOpens := by
  have h' := steady_withDays h wm rh ah
  have hsl : ∀ l, SessionLabel (withDays cfg wm rh ah) start stop l → SessionLabel cfg start stop l := by
    rintro l ⟨d, rfl, a, c, e⟩
    exact ⟨d, rfl, a, c, hsub d e⟩
  have hr := readable_of_build hb h.ordered h.tame hm hpair
  have hr' : Readable (withDays cfg wm rh ah) start stop :=
    ⟨fun l t hl => hr.opens l t (hsl l hl), fun l t hl => hr.closes l t (hsl l hl),
      fun l t table hl => hr.breakStarts l t table (hsl l hl),
      fun l t table hl => hr.breakEnds l t table (hsl l hl), hr.specialOpens, hr.specialCloses, hr.paired⟩
  have hf' : SpecialsFit (withDays cfg wm rh ah) start stop :=
    ⟨hspecial, fun l u u' a c => applied_unique (h.special.openUnique _ _ _) a c,
      fun l u u' a c => applied_unique (h.special.closeUnique _ _ _) a c⟩
  obtain ⟨b', hb'⟩ := c38_succeeds h'.ordered h'.tame hm hlow hr' hf' hne
  have hwf := h.ordered.wellFormed h.tame hm hlow
  have hwf' := h'.ordered.wellFormed h'.tame hm hlow
  obtain ⟨e', -, -, -, hreg'⟩ := c38_regular hb' h'.ordered h'.tame hm hlow
  refine ⟨b', hb', fun s => ⟨fun hs => ?_, fun hs => ?_⟩, e', hreg', fun l => ?_, fun l => ?_⟩
  · have hl := (mem_rows_label hb' hm hwf' _).1 ⟨s, hs, rfl⟩
    refine ⟨row_in_edit h' h hb' hb hm hlow hs (hsl _ hl) (sameAt_withDays cfg wm rh ah start stop _).symm, ?_⟩
    obtain ⟨d, e, -, -, hd⟩ := hl
    rw [e, Int.mul_ediv_cancel _ (by decide)]
    exact hd
  · obtain ⟨hs, hd⟩ := hs
    obtain ⟨d, e, h1, h2, -⟩ := (mem_rows_label hb hm hwf _).1 ⟨s, hs, rfl⟩
    rw [e, Int.mul_ediv_cancel _ (by decide)] at hd
    exact row_in_edit h h' hb hb' hm hlow hs ⟨d, e, h1, h2, hd⟩ (sameAt_withDays cfg wm rh ah start stop _)
  · rw [(c41_lists hb h.ordered h.tame hm hlow).2.2.2, (c41_lists hb' h'.ordered h'.tame hm hlow).2.2.2]
    exact ⟨fun ⟨_, u, hu⟩ => ⟨c35_special_is_session hb h.ordered h.tame hm hlow l u (.inr hu), u, hu⟩,
      fun ⟨_, u, hu⟩ => ⟨c35_special_is_session hb' h'.ordered h'.tame hm hlow l u (.inr hu), u, hu⟩⟩
  · rw [(c41_lists hb h.ordered h.tame hm hlow).2.2.1, (c41_lists hb' h'.ordered h'.tame hm hlow).2.2.1]
    exact ⟨fun ⟨_, u, hu⟩ => ⟨c35_special_is_session hb h.ordered h.tame hm hlow l u (.inl hu), u, hu⟩,
      fun ⟨_, u, hu⟩ => ⟨c35_special_is_session hb' h'.ordered h'.tame hm hlow l u (.inl hu), u, hu⟩⟩

/-- The demo class without Mondays: day 11 is one. -/
example : ∃ b', build (withDays demoConfig (fun wd => decide (0 < wd) && decide (wd < 5))
      demoConfig.regularHolidays demoConfig.adhocHolidays) 0 (14 * DAY) = .ok b' ∧
    b'.cal.sessions = [0, 1, 7, 8, 12, 13, 14].map (· * DAY) ∧ b'.earlyCloses = demoBuilt.earlyCloses := by
  have h : (build (withDays demoConfig (fun wd => decide (0 < wd) && decide (wd < 5))
      demoConfig.regularHolidays demoConfig.adhocHolidays) 0 (14 * DAY)).toOption.map
      (fun b => (b.cal.sessions, b.earlyCloses)) =
      some ([0, 1, 7, 8, 12, 13, 14].map (· * DAY), demoBuilt.earlyCloses) := by decide +kernel
  cases hb : build (withDays demoConfig (fun wd => decide (0 < wd) && decide (wd < 5))
      demoConfig.regularHolidays demoConfig.adhocHolidays) 0 (14 * DAY) with
  | error e => rw [hb] at h; cases h
  | ok b' =>
    rw [hb] at h
    simp only [Except.toOption, Option.map_some, Option.some.injEq, Prod.mk.injEq] at h
    exact ⟨b', rfl, h⟩

theorem tradingDay_withHoliday {d x : Int} :
    TradingDay (withHoliday cfg (x * DAY)) d ↔ TradingDay cfg d ∧ d ≠ x := by
  have e : x * DAY / DAY = x := Int.mul_ediv_cancel _ (by decide)
  unfold TradingDay withHoliday
  simp only [List.mem_append, List.mem_singleton]
  constructor
  · rintro ⟨h1, h2, h3⟩
    exact ⟨⟨h1, fun y hy => h2 y (.inl hy), h3⟩, fun hd => h2 (x * DAY) (.inr rfl) (e.trans hd.symm)⟩
  · rintro ⟨⟨h1, h2, h3⟩, hd⟩
    refine ⟨h1, fun y hy => ?_, h3⟩
    rcases hy with hy | rfl
    · exact h2 y hy
    · exact fun h => hd (h.symm.trans e)

/-- C81: adding one ad hoc holiday removes exactly that session; every other row, the early closes and the late opens
stay. -/
theorem c81_holiday (h : Steady cfg) (hpair : PairedBreaks cfg) (hb : build cfg start stop = .ok b)
    (hm : DAY ∣ start) (hlow : NP_NAT + 3 * DAY ≤ start) {x : Int}
    (hspecial : ∀ u, ¬ SpecialOpen cfg start stop (x * DAY) u ∧ ¬ SpecialClose cfg start stop (x * DAY) u)
    (hne : ∃ s ∈ rowsOf b.cal, s.label ≠ x * DAY) :
    ∃ b', build (withHoliday cfg (x * DAY)) start stop = .ok b' ∧
      rowsOf b'.cal = (rowsOf b.cal).filter (fun s => decide (s.label ≠ x * DAY)) ∧
      (∀ l, l ∈ b'.earlyCloses ↔ l ∈ b.earlyCloses) ∧ ∀ l, l ∈ b'.lateOpens ↔ l ∈ b.lateOpens := by
  have hwf := h.ordered.wellFormed h.tame hm hlow
  have hlab : ∀ l, SessionLabel cfg start stop l → l ≠ x * DAY →
      SessionLabel (withHoliday cfg (x * DAY)) start stop l := by
    rintro l ⟨d, rfl, h1, h2, h3⟩ hne
    exact ⟨d, rfl, h1, h2, tradingDay_withHoliday.2 ⟨h3, fun e => hne (by rw [e])⟩⟩
  have hin : ∀ l u, SpecialOpen cfg start stop l u ∨ SpecialClose cfg start stop l u →
      SessionLabel cfg start stop l := by
    intro l u hu
    have := c35_special_is_session hb h.ordered h.tame hm hlow l u hu
    rw [← (c34_rows hb hwf).2, List.mem_map] at this
    exact (mem_rows_label hb hm hwf l).1 this
  obtain ⟨b', hb', hrows, -, hreg', hE, hL⟩ := c81_closed_days (wm := cfg.weekmask) (rh := cfg.regularHolidays)
    (ah := cfg.adhocHolidays ++ [x * DAY]) h hpair hb hm hlow
    (fun d hd => (tradingDay_withHoliday.1 hd).1)
    (fun l u hu => hlab l (hin l u hu) (by
      rintro rfl
      exact hu.elim (hspecial u).1 (hspecial u).2))
    (by
      obtain ⟨s, hs, hne⟩ := hne
      exact ⟨s.label, hlab _ ((mem_rows_label hb hm hwf _).1 ⟨s, hs, rfl⟩) hne⟩)
  refine ⟨b', hb', ?_, hE, hL⟩
  obtain ⟨-, -, -, -, hreg⟩ := c38_regular hb h.ordered h.tame hm hlow
  refine labels_ext hreg'.labels (hreg.labels.filter _) fun s => ?_
  rw [hrows, List.mem_filter, decide_eq_true_eq]
  refine and_congr_right fun hs => ?_
  obtain ⟨d, e, -, -, hd⟩ := (mem_rows_label hb hm hwf _).1 ⟨s, hs, rfl⟩
  have e2 : s.label / DAY = d := by rw [e, Int.mul_ediv_cancel _ (by decide)]
  rw [e2]
  refine Iff.trans (tradingDay_withHoliday (cfg := cfg)) ⟨fun k e' => k.2 ?_, fun k => ⟨hd, fun e' => k ?_⟩⟩
  · have := DAY_pos
    rw [e] at e'
    exact Int.eq_of_mul_eq_mul_right (by omega) e'
  · rw [e, e']

/-- Day 8 of the demo calendar closed. -/
example : ∃ b', build (withHoliday demoConfig (8 * DAY)) 0 (14 * DAY) = .ok b' ∧
    (rowsOf b'.cal).map (·.label) = [0, 1, 4, 7, 11, 12, 13, 14].map (· * DAY) := by
  obtain ⟨b', h1, h2, -⟩ := c81_holiday demo_steady demo_paired demo_build (by decide) (by decide) (x := 8)
    (fun u => demo_no_special) ⟨⟨0, hm 14 31, some (hm 17 1, hm 18 0), hm 21 0⟩, by decide +kernel, by decide⟩
  exact ⟨b', h1, by rw [h2]; decide +kernel⟩

/-- C81: a holiday on a day with a special time makes construction fail. -/
theorem c81_holiday_refused (h : Steady cfg) (hpair : PairedBreaks cfg) (hb : build cfg start stop = .ok b)
    (hm : DAY ∣ start) (hlow : NP_NAT + 3 * DAY ≤ start) {x u : Int}
    (hu : SpecialOpen cfg start stop (x * DAY) u ∨ SpecialClose cfg start stop (x * DAY) u) :
    build (withHoliday cfg (x * DAY)) start stop =
      .error (.valueError "Special dates are not trading days.") := by
  have h' : Steady (withHoliday cfg (x * DAY)) :=
    steady_withDays h cfg.weekmask cfg.regularHolidays (cfg.adhocHolidays ++ [x * DAY])
  have hr := readable_of_build hb h.ordered h.tame hm hpair
  have hsl : ∀ l, SessionLabel (withHoliday cfg (x * DAY)) start stop l → SessionLabel cfg start stop l := by
    rintro l ⟨d, rfl, a, c, e⟩
    exact ⟨d, rfl, a, c, (tradingDay_withHoliday.1 e).1⟩
  refine c35_not_a_session (l := x * DAY) (u := u) (h'.ordered.wellFormed h'.tame hm hlow)
    ⟨fun l t hl => hr.opens l t (hsl l hl), fun l t hl => hr.closes l t (hsl l hl),
      fun l t table hl => hr.breakStarts l t table (hsl l hl),
      fun l t table hl => hr.breakEnds l t table (hsl l hl), hr.specialOpens, hr.specialCloses, hr.paired⟩ hu ?_
  rintro ⟨d, e, -, -, hd⟩
  have := DAY_pos
  exact (tradingDay_withHoliday.1 hd).2 (Int.eq_of_mul_eq_mul_right (by omega) e.symm)

/-- Day 12 of the demo calendar, which has an early close. -/
example : SpecialClose demoConfig 0 (14 * DAY) (12 * DAY) (12 * DAY + hm 17 0) ∧
    build (withHoliday demoConfig (12 * DAY)) 0 (14 * DAY) =
      .error (.valueError "Special dates are not trading days.") :=
  ⟨⟨hm 13 0, .inr ⟨[12 * DAY], by simp [demoConfig], by simp⟩,
    (localize_ok_iff demo_tame _ _).1 (by decide +kernel), by decide, by decide⟩, by decide +kernel⟩

/-- C81: around a new holiday the calendars agree up to two days before it and from three days after it. -/
theorem c81_holiday_far (h : Steady cfg) (hb : build cfg start stop = .ok b) {x : Int}
    (hb' : build (withHoliday cfg (x * DAY)) start stop = .ok b') (hm : DAY ∣ start)
    (hlow : NP_NAT + 3 * DAY ≤ start) :
    (∀ lo, Agree b b' lo (x * DAY - 1 - 2 * DAY)) ∧ ∀ hi, Agree b b' (x * DAY + 1 + 3 * DAY) hi := by
  have h' : Steady (withHoliday cfg (x * DAY)) :=
    steady_withDays h cfg.weekmask cfg.regularHolidays (cfg.adhocHolidays ++ [x * DAY])
  have hsame : ∀ l, SameAt cfg (withHoliday cfg (x * DAY)) start stop l :=
    sameAt_withDays cfg cfg.weekmask cfg.regularHolidays (cfg.adhocHolidays ++ [x * DAY]) start stop
  have hd : ∀ d, d ≠ x → (TradingDay cfg d ↔ TradingDay (withHoliday cfg (x * DAY)) d) :=
    fun d hd => ⟨fun k => tradingDay_withHoliday.2 ⟨k, hd⟩, fun k => (tradingDay_withHoliday.1 k).1⟩
  refine ⟨fun lo => ?_, fun hi => ?_⟩
  · have := c81_local (lo := lo - 3 * DAY) (hi := x * DAY - 1) h h' hb hb' hm hlow
      (fun d _ k => hd d (by rintro rfl; omega)) (fun l _ _ => hsame l)
    have e1 : lo - 3 * DAY + 3 * DAY = lo := by omega
    rwa [e1] at this
  · have := c81_local (lo := x * DAY + 1) (hi := hi + 2 * DAY) h h' hb hb' hm hlow
      (fun d k _ => hd d (by rintro rfl; omega)) (fun l _ _ => hsame l)
    have e1 : hi + 2 * DAY - 2 * DAY = hi := by omega
    rwa [e1] at this

/-! ### early closes -/

theorem specialTime_append {rules : List (Int × HolidayFn)} {adHoc : List (Int × List Int)} {day t l t' : Int} :
    SpecialTime rules (adHoc ++ [(t, [day])]) start stop l t' ↔
      SpecialTime rules adHoc start stop l t' ∨ l = day ∧ t' = t := by
  unfold SpecialTime
  constructor
  · rintro (h | ⟨ds, h, hl⟩)
    · exact .inl (.inl h)
    · rcases List.mem_append.1 h with h | h
      · exact .inl (.inr ⟨ds, h, hl⟩)
      · cases List.mem_singleton.1 h
        exact .inr ⟨List.mem_singleton.1 hl, rfl⟩
  · rintro ((h | ⟨ds, h, hl⟩) | ⟨rfl, rfl⟩)
    · exact .inl h
    · exact .inr ⟨ds, List.mem_append.2 (.inl h), hl⟩
    · exact .inr ⟨[l], List.mem_append.2 (.inr (by simp)), by simp⟩

/-- C81: adding an early close on a session, at a time that fits the class, changes that session's close to it and
drops the session's break; every other row stays, and the session joins the early closes. -/
theorem c81_early_close (h : Steady cfg) (hpair : PairedBreaks cfg) (hb : build cfg start stop = .ok b)
    (hm : DAY ∣ start) (hlow : NP_NAT + 3 * DAY ≤ start) {day t u : Int}
    (h' : Steady (withEarlyClose cfg day t)) (hday : day ∈ b.cal.sessions)
    (hu : OnlyInstant cfg.tz (day + t) u) (hr1 : start ≤ u) (hr2 : u ≤ stop) :
    ∃ b', build (withEarlyClose cfg day t) start stop = .ok b' ∧
      rowsOf b'.cal =
        (rowsOf b.cal).map (fun s => if s.label = day then ⟨s.label, s.open, none, u⟩ else s) ∧
      (∀ l, l ∈ b'.earlyCloses ↔ l ∈ b.earlyCloses ∨ l = day) ∧ ∀ l, l ∈ b'.lateOpens ↔ l ∈ b.lateOpens := by
  have hwf := h.ordered.wellFormed h.tame hm hlow
  have hwf' := h'.ordered.wellFormed h'.tame hm hlow
  have hr := readable_of_build hb h.ordered h.tame hm hpair
  have hlab : SessionLabel cfg start stop day := by
    rw [← (c34_rows hb hwf).2, List.mem_map] at hday
    exact (mem_rows_label hb hm hwf day).1 hday
  have hin : ∀ l u, SpecialOpen cfg start stop l u ∨ SpecialClose cfg start stop l u →
      SessionLabel cfg start stop l := by
    intro l u hu
    have := c35_special_is_session hb h.ordered h.tame hm hlow l u hu
    rw [← (c34_rows hb hwf).2, List.mem_map] at this
    exact (mem_rows_label hb hm hwf l).1 this
  have hsc : ∀ l v, SpecialClose (withEarlyClose cfg day t) start stop l v ↔
      SpecialClose cfg start stop l v ∨ l = day ∧ v = u := by
    intro l v
    constructor
    · rintro ⟨t', ht', hv, h1, h2⟩
      rcases specialTime_append.1 ht' with k | ⟨rfl, rfl⟩
      · exact .inl ⟨t', k, hv, h1, h2⟩
      · exact .inr ⟨rfl, OnlyInstant.unique hv hu⟩
    · rintro (⟨t', ht', hv, h1, h2⟩ | ⟨rfl, rfl⟩)
      · exact ⟨t', specialTime_append.2 (.inl ht'), hv, h1, h2⟩
      · exact ⟨t, specialTime_append.2 (.inr ⟨rfl, rfl⟩), hu, hr1, hr2⟩
  obtain ⟨b', hb'⟩ := c38_succeeds (cfg := withEarlyClose cfg day t) (start := start) (stop := stop)
    h'.ordered h'.tame hm hlow
    ⟨hr.opens, hr.closes, hr.breakStarts, hr.breakEnds, hr.specialOpens, fun l t' ht' => by
      rcases specialTime_append.1 ht' with k | ⟨rfl, rfl⟩
      · exact hr.specialCloses l t' k
      · exact ⟨u, hu⟩, hr.paired⟩
    ⟨fun l v hv => by
      rcases hv with hv | hv
      · exact hin l v (.inl hv)
      · rcases (hsc l v).1 hv with hv | ⟨rfl, -⟩
        · exact hin l v (.inr hv)
        · exact hlab,
      fun l u u' a c => applied_unique (h'.special.openUnique _ _ _) a c,
      fun l u u' a c => applied_unique (h'.special.closeUnique _ _ _) a c⟩ ⟨day, hlab⟩
  have hsess : b'.cal.sessions = b.cal.sessions := by
    refine sorted_ext (c33_sessions hb' hm).1 (c33_sessions hb hm).1 fun l => ?_
    rw [← (c34_rows hb hwf).2, ← (c34_rows hb' hwf').2, List.mem_map, List.mem_map, mem_rows_label hb hm hwf,
      mem_rows_label hb' hm hwf']
    exact Iff.rfl
  obtain ⟨-, -, -, -, hreg⟩ := c38_regular hb h.ordered h.tame hm hlow
  obtain ⟨-, -, -, -, hreg'⟩ := c38_regular hb' h'.ordered h'.tame hm hlow
  have key : ∀ s ∈ rowsOf b.cal, ∀ s' ∈ rowsOf b'.cal, s.label = s'.label →
      s' = if s.label = day then ⟨s.label, s.open, none, u⟩ else s := by
    intro s hs s' hs' hl
    split
    · next hd =>
      have f := row_facts hb hwf s hs
      have f' := row_facts hb' hwf' s' hs'
      have hv : SpecialClose (withEarlyClose cfg day t) start stop s'.label u :=
        (hsc _ _).2 (.inr ⟨hl.symm.trans hd, rfl⟩)
      have e1 : s'.open = s.open := by
        rcases Classical.em (∃ u, SpecialOpen cfg start stop s.label u) with ⟨v, hv⟩ | hno
        · have a := f.openSpecial v hv
          have c := f'.openSpecial v (hl ▸ hv)
          rw [← hl] at c
          exact applied_unique (h.special.openUnique _ _ _) c a
        · have a := f.openStandard (fun u hu => hno ⟨u, hu⟩)
          have c := f'.openStandard (fun u hu => hno ⟨u, hl ▸ hu⟩)
          rw [← hl] at c
          exact standard_unique h.ordered.openTable c a
      have e2 : s'.close = u := applied_unique (h'.special.closeUnique _ _ _) (f'.closeSpecial u hv) hv
      have e3 : s'.brk = none := f'.brkSpecial u hv
      cases s'
      simp only at e1 e2 e3 hl
      rw [e1, e2, e3, hl]
    · next hd =>
      refine (c81_row h h' hb hb' hm hlow hs hs' hl ?_).symm
      constructor
      case breakStarts => exact fun _ _ e e' t => by cases e.symm.trans e'; exact Iff.rfl
      case breakEnds => exact fun _ _ e e' t => by cases e.symm.trans e'; exact Iff.rfl
      case specialCloses =>
        exact fun t' => specialTime_append.trans ⟨fun k => k.resolve_right fun e => hd e.1, .inl⟩
      all_goals first | rfl | exact Iff.rfl | exact fun _ => Iff.rfl
  refine ⟨b', hb', labels_ext hreg'.labels ?_ fun s' => ?_, fun l => ?_, fun l => ?_⟩
  · rw [List.pairwise_map]
    refine hreg.labels.imp ?_
    intro s s' hlt
    split <;> split <;> exact hlt
  · rw [List.mem_map]
    constructor
    · intro hs'
      obtain ⟨s, hs, e⟩ := (mem_rows_label hb hm hwf s'.label).2
        ((mem_rows_label hb' hm hwf' _).1 ⟨s', hs', rfl⟩)
      exact ⟨s, hs, (key s hs s' hs' e).symm⟩
    · rintro ⟨s, hs, rfl⟩
      obtain ⟨s', hs', e⟩ := (mem_rows_label hb' hm hwf' s.label).2
        ((mem_rows_label hb hm hwf _).1 ⟨s, hs, rfl⟩)
      rw [← key s hs s' hs' e.symm]
      exact hs'
  · rw [(c41_lists hb h.ordered h.tame hm hlow).2.2.2, (c41_lists hb' h'.ordered h'.tame hm hlow).2.2.2, hsess]
    constructor
    · rintro ⟨hl, v, hv⟩
      rcases (hsc l v).1 hv with hv | ⟨rfl, -⟩
      · exact .inl ⟨hl, v, hv⟩
      · exact .inr rfl
    · rintro (⟨hl, v, hv⟩ | rfl)
      · exact ⟨hl, v, (hsc l v).2 (.inl hv)⟩
      · exact ⟨hday, u, (hsc _ _).2 (.inr ⟨rfl, rfl⟩)⟩
  · rw [(c41_lists hb h.ordered h.tame hm hlow).2.2.1, (c41_lists hb' h'.ordered h'.tame hm hlow).2.2.1, hsess]
    exact Iff.rfl

theorem oneSpecial_withEarlyClose {day t : Int} (h : OneSpecial cfg)
    (hno : ∀ s e t', ¬ SpecialTime cfg.specialCloses cfg.specialClosesAdhoc s e day t') :
    OneSpecial (withEarlyClose cfg day t) := by
  refine ⟨h.opens, h.closes, h.openUnique, fun s e l t₁ t₂ h1 h2 => ?_⟩
  rcases specialTime_append.1 h1 with h1 | ⟨rfl, rfl⟩
  · rcases specialTime_append.1 h2 with h2 | ⟨rfl, rfl⟩
    · exact h.closeUnique s e l t₁ t₂ h1 h2
    · exact absurd h1 (hno _ _ _)
  · rcases specialTime_append.1 h2 with h2 | ⟨-, rfl⟩
    · exact absurd h2 (hno _ _ _)
    · rfl

/-- An early close at 14:00 on day 8 of the demo calendar, whose break it drops. -/
example : ∃ b', build (withEarlyClose demoConfig (8 * DAY) (hm 14 0)) 0 (14 * DAY) = .ok b' ∧
    (rowsOf demoBuilt.cal)[4]? =
      some ⟨8 * DAY, 8 * DAY + hm 15 1, some (8 * DAY + hm 17 1, 8 * DAY + hm 18 0), 8 * DAY + hm 21 0⟩ ∧
    (rowsOf b'.cal)[4]? = some ⟨8 * DAY, 8 * DAY + hm 15 1, none, 8 * DAY + hm 19 0⟩ ∧
    (rowsOf b'.cal)[5]? = (rowsOf demoBuilt.cal)[5]? := by
  have hs : Steady (withEarlyClose demoConfig (8 * DAY) (hm 14 0)) :=
    steady_of (ordered_of (by decide +kernel)) demo_tame (oneSpecial_withEarlyClose oneSpecial_demo
      (fun s e t' h => by rcases demo_special h with h | h | h <;> exact absurd h (by decide)))
      (by decide +kernel)
  obtain ⟨b', h1, h2, -⟩ := c81_early_close demo_steady demo_paired demo_build (by decide) (by decide)
    (u := 8 * DAY + hm 19 0) hs (by decide +kernel)
    ((localize_ok_iff demo_tame _ _).1 (by decide +kernel)) (by decide) (by decide)
  refine ⟨b', h1, by decide +kernel, ?_, ?_⟩ <;> rw [h2] <;> decide +kernel

/-! ### late opens -/

/-- C81: adding a late open on a session, at a time that fits the class, changes that session's open to it and nothing
else, the session's break and close included; every other row stays, and the session joins the late opens. -/
theorem c81_late_open (h : Steady cfg) (hpair : PairedBreaks cfg) (hb : build cfg start stop = .ok b)
    (hm : DAY ∣ start) (hlow : NP_NAT + 3 * DAY ≤ start) {day t u : Int}
    (h' : Steady (withLateOpen cfg day t)) (hday : day ∈ b.cal.sessions)
    (hu : OnlyInstant cfg.tz (day + t) u) (hr1 : start ≤ u) (hr2 : u ≤ stop) :
    ∃ b', build (withLateOpen cfg day t) start stop = .ok b' ∧
      rowsOf b'.cal =
        (rowsOf b.cal).map (fun s => if s.label = day then ⟨s.label, u, s.brk, s.close⟩ else s) ∧
      (∀ l, l ∈ b'.earlyCloses ↔ l ∈ b.earlyCloses) ∧ ∀ l, l ∈ b'.lateOpens ↔ l ∈ b.lateOpens ∨ l = day := by
  have hwf := h.ordered.wellFormed h.tame hm hlow
  have hwf' := h'.ordered.wellFormed h'.tame hm hlow
  have hr := readable_of_build hb h.ordered h.tame hm hpair
  have hlab : SessionLabel cfg start stop day := by
    rw [← (c34_rows hb hwf).2, List.mem_map] at hday
    exact (mem_rows_label hb hm hwf day).1 hday
  have hin : ∀ l u, SpecialOpen cfg start stop l u ∨ SpecialClose cfg start stop l u →
      SessionLabel cfg start stop l := by
    intro l u hu
    have := c35_special_is_session hb h.ordered h.tame hm hlow l u hu
    rw [← (c34_rows hb hwf).2, List.mem_map] at this
    exact (mem_rows_label hb hm hwf l).1 this
  have hso : ∀ l v, SpecialOpen (withLateOpen cfg day t) start stop l v ↔
      SpecialOpen cfg start stop l v ∨ l = day ∧ v = u := by
    intro l v
    constructor
    · rintro ⟨t', ht', hv, h1, h2⟩
      rcases specialTime_append.1 ht' with k | ⟨rfl, rfl⟩
      · exact .inl ⟨t', k, hv, h1, h2⟩
      · exact .inr ⟨rfl, OnlyInstant.unique hv hu⟩
    · rintro (⟨t', ht', hv, h1, h2⟩ | ⟨rfl, rfl⟩)
      · exact ⟨t', specialTime_append.2 (.inl ht'), hv, h1, h2⟩
      · exact ⟨t, specialTime_append.2 (.inr ⟨rfl, rfl⟩), hu, hr1, hr2⟩
  obtain ⟨b', hb'⟩ := c38_succeeds (cfg := withLateOpen cfg day t) (start := start) (stop := stop)
    h'.ordered h'.tame hm hlow
    ⟨hr.opens, hr.closes, hr.breakStarts, hr.breakEnds, (fun l t' ht' => by
      rcases specialTime_append.1 ht' with k | ⟨rfl, rfl⟩
      · exact hr.specialOpens l t' k
      · exact ⟨u, hu⟩), hr.specialCloses, hr.paired⟩
    ⟨fun l v hv => by
      rcases hv with hv | hv
      · rcases (hso l v).1 hv with hv | ⟨rfl, -⟩
        · exact hin l v (.inl hv)
        · exact hlab
      · exact hin l v (.inr hv),
      fun l u u' a c => applied_unique (h'.special.openUnique _ _ _) a c,
      fun l u u' a c => applied_unique (h'.special.closeUnique _ _ _) a c⟩ ⟨day, hlab⟩
  have hsess : b'.cal.sessions = b.cal.sessions := by
    refine sorted_ext (c33_sessions hb' hm).1 (c33_sessions hb hm).1 fun l => ?_
    rw [← (c34_rows hb hwf).2, ← (c34_rows hb' hwf').2, List.mem_map, List.mem_map, mem_rows_label hb hm hwf,
      mem_rows_label hb' hm hwf']
    exact Iff.rfl
  obtain ⟨-, -, -, -, hreg⟩ := c38_regular hb h.ordered h.tame hm hlow
  obtain ⟨-, -, -, -, hreg'⟩ := c38_regular hb' h'.ordered h'.tame hm hlow
  have key : ∀ s ∈ rowsOf b.cal, ∀ s' ∈ rowsOf b'.cal, s.label = s'.label →
      s' = if s.label = day then ⟨s.label, u, s.brk, s.close⟩ else s := by
    intro s hs s' hs' hl
    split
    · next hd =>
      have f := row_facts hb hwf s hs
      have f' := row_facts hb' hwf' s' hs'
      have hv : SpecialOpen (withLateOpen cfg day t) start stop s'.label u :=
        (hso _ _).2 (.inr ⟨hl.symm.trans hd, rfl⟩)
      have e1 : s'.open = u := applied_unique (h'.special.openUnique _ _ _) (f'.openSpecial u hv) hv
      have g : RowFacts cfg start stop ⟨s'.label, s.open, s'.brk, s'.close⟩ :=
        ⟨hl ▸ f.openSpecial, hl ▸ f.openStandard, f'.closeSpecial, f'.closeStandard, f'.brkSpecial, f'.brkStandard,
          f'.brkNone, f'.brkBoth⟩
      have e2 := rows_eq h.ordered h.special f g hl (fun _ => Iff.rfl) fun _ => Iff.rfl
      cases s'
      simp only at e1 e2
      rw [e2, e1]
    · next hd =>
      refine (c81_row h h' hb hb' hm hlow hs hs' hl ?_).symm
      constructor
      case breakStarts => exact fun _ _ e e' t => by cases e.symm.trans e'; exact Iff.rfl
      case breakEnds => exact fun _ _ e e' t => by cases e.symm.trans e'; exact Iff.rfl
      case specialOpens =>
        exact fun t' => specialTime_append.trans ⟨fun k => k.resolve_right fun e => hd e.1, .inl⟩
      all_goals first | rfl | exact Iff.rfl | exact fun _ => Iff.rfl
  refine ⟨b', hb', labels_ext hreg'.labels ?_ fun s' => ?_, fun l => ?_, fun l => ?_⟩
  · rw [List.pairwise_map]
    refine hreg.labels.imp ?_
    intro s s' hlt
    split <;> split <;> exact hlt
  · rw [List.mem_map]
    constructor
    · intro hs'
      obtain ⟨s, hs, e⟩ := (mem_rows_label hb hm hwf s'.label).2
        ((mem_rows_label hb' hm hwf' _).1 ⟨s', hs', rfl⟩)
      exact ⟨s, hs, (key s hs s' hs' e).symm⟩
    · rintro ⟨s, hs, rfl⟩
      obtain ⟨s', hs', e⟩ := (mem_rows_label hb' hm hwf' s.label).2
        ((mem_rows_label hb hm hwf _).1 ⟨s, hs, rfl⟩)
      rw [← key s hs s' hs' e.symm]
      exact hs'
  · rw [(c41_lists hb h.ordered h.tame hm hlow).2.2.2, (c41_lists hb' h'.ordered h'.tame hm hlow).2.2.2, hsess]
    exact Iff.rfl
  · rw [(c41_lists hb h.ordered h.tame hm hlow).2.2.1, (c41_lists hb' h'.ordered h'.tame hm hlow).2.2.1, hsess]
    constructor
    · rintro ⟨hl, v, hv⟩
      rcases (hso l v).1 hv with hv | ⟨rfl, -⟩
      · exact .inl ⟨hl, v, hv⟩
      · exact .inr rfl
    · rintro (⟨hl, v, hv⟩ | rfl)
      · exact ⟨hl, v, (hso l v).2 (.inl hv)⟩
      · exact ⟨hday, u, (hso _ _).2 (.inr ⟨rfl, rfl⟩)⟩

theorem oneSpecial_withLateOpen {day t : Int} (h : OneSpecial cfg)
    (hno : ∀ s e t', ¬ SpecialTime cfg.specialOpens cfg.specialOpensAdhoc s e day t') :
    OneSpecial (withLateOpen cfg day t) := by
  refine ⟨h.opens, h.closes, fun s e l t₁ t₂ h1 h2 => ?_, h.closeUnique⟩
  rcases specialTime_append.1 h1 with h1 | ⟨rfl, rfl⟩
  · rcases specialTime_append.1 h2 with h2 | ⟨rfl, rfl⟩
    · exact h.openUnique s e l t₁ t₂ h1 h2
    · exact absurd h1 (hno _ _ _)
  · rcases specialTime_append.1 h2 with h2 | ⟨-, rfl⟩
    · exact absurd h2 (hno _ _ _)
    · rfl

/-- A late open at 11:00 on day 8 of the demo calendar, whose break and close stay. -/
example : ∃ b', build (withLateOpen demoConfig (8 * DAY) (hm 11 0)) 0 (14 * DAY) = .ok b' ∧
    (rowsOf demoBuilt.cal)[4]? =
      some ⟨8 * DAY, 8 * DAY + hm 15 1, some (8 * DAY + hm 17 1, 8 * DAY + hm 18 0), 8 * DAY + hm 21 0⟩ ∧
    (rowsOf b'.cal)[4]? =
      some ⟨8 * DAY, 8 * DAY + hm 16 0, some (8 * DAY + hm 17 1, 8 * DAY + hm 18 0), 8 * DAY + hm 21 0⟩ ∧
    (rowsOf b'.cal)[5]? = (rowsOf demoBuilt.cal)[5]? := by
  have hs : Steady (withLateOpen demoConfig (8 * DAY) (hm 11 0)) :=
    steady_of (ordered_of (by decide +kernel)) demo_tame (oneSpecial_withLateOpen oneSpecial_demo
      (fun s e t' h => by
        rcases h with ⟨cal, h, -⟩ | ⟨ds, h, -⟩ <;> simp [demoConfig] at h))
      (by decide +kernel)
  obtain ⟨b', h1, h2, -⟩ := c81_late_open demo_steady demo_paired demo_build (by decide) (by decide)
    (u := 8 * DAY + hm 16 0) hs (by decide +kernel)
    ((localize_ok_iff demo_tame _ _).1 (by decide +kernel)) (by decide) (by decide)
  refine ⟨b', h1, by decide +kernel, ?_, ?_⟩ <;> rw [h2] <;> decide +kernel

/-! ### trading hours -/

/-- C81: new trading hours from a day on leave everything up to two days before it as it was, and all sessions
before it; from that day on the sessions are the same days, and those without special times open and close
at the new hours. -/
theorem c81_hours {day o c : Int} (h : Steady cfg) (h' : Steady (withHours cfg day o c))
    (hb : build cfg start stop = .ok b) (hb' : build (withHours cfg day o c) start stop = .ok b')
    (hm : DAY ∣ start) (hlow : NP_NAT + 3 * DAY ≤ start) :
    b'.cal.sessions = b.cal.sessions ∧
    (∀ lo, Agree b b' lo (day - 1 - 2 * DAY)) ∧
    (∀ s, s.label < day → (s ∈ rowsOf b'.cal ↔ s ∈ rowsOf b.cal)) ∧
    ∀ s ∈ rowsOf b'.cal, day ≤ s.label →
      ((∀ u, ¬ SpecialOpen cfg start stop s.label u) →
        OnlyInstant cfg.tz (s.label + cfg.openOffset * DAY + o) s.open) ∧
      ((∀ u, ¬ SpecialClose cfg start stop s.label u) →
        OnlyInstant cfg.tz (s.label + cfg.closeOffset * DAY + c) s.close) := by
  have hp := DAY_pos
  have hwf := h.ordered.wellFormed h.tame hm hlow
  have hwf' := h'.ordered.wellFormed h'.tame hm hlow
  have hsame : ∀ l, l < day → SameAt cfg (withHours cfg day o c) start stop l := by
    intro l hl
    constructor
    case opens => exact fun t => timeInEffect_append_before hl
    case closes => exact fun t => timeInEffect_append_before hl
    case breakStarts => exact fun _ _ e e' t => by cases e.symm.trans e'; exact Iff.rfl
    case breakEnds => exact fun _ _ e e' t => by cases e.symm.trans e'; exact Iff.rfl
    all_goals first | rfl | exact Iff.rfl | exact fun _ => Iff.rfl
  refine ⟨?_, fun lo => ?_, fun s hl => ⟨fun hs => ?_, fun hs => ?_⟩, fun s hs hl => ⟨fun hn => ?_, fun hn => ?_⟩⟩
  · refine sorted_ext (c33_sessions hb' hm).1 (c33_sessions hb hm).1 fun l => ?_
    rw [← (c34_rows hb hwf).2, ← (c34_rows hb' hwf').2, List.mem_map, List.mem_map, mem_rows_label hb hm hwf,
      mem_rows_label hb' hm hwf']
    exact Iff.rfl
  · have := c81_local (lo := lo - 3 * DAY) (hi := day - 1) h h' hb hb' hm hlow (fun d _ _ => Iff.rfl)
      (fun l _ hl => hsame l (by omega))
    have e1 : lo - 3 * DAY + 3 * DAY = lo := by omega
    rwa [e1] at this
  · exact row_in_edit h' h hb' hb hm hlow hs ((mem_rows_label hb' hm hwf' _).1 ⟨s, hs, rfl⟩) (hsame _ hl).symm
  · exact row_in_edit h h' hb hb' hm hlow hs ((mem_rows_label hb hm hwf _).1 ⟨s, hs, rfl⟩) (hsame _ hl)
  · obtain ⟨t, ht, hu⟩ := (row_facts hb' hwf' s hs).openStandard hn
    obtain ⟨t₀, -, hu₀⟩ := c34_time_unique h'.ordered.openTable s.label
    rw [hu₀ t ht, ← hu₀ o (timeInEffect_append_after hl)] at hu
    exact hu
  · obtain ⟨t, ht, hu⟩ := (row_facts hb' hwf' s hs).closeStandard hn
    obtain ⟨t₀, -, hu₀⟩ := c34_time_unique h'.ordered.closeTable s.label
    rw [hu₀ t ht, ← hu₀ c (timeInEffect_append_after hl)] at hu
    exact hu

/-- The 24/5 calendar with hours from 9:00 to 17:00 from Monday, day 4, on. -/
example : Steady weekdayCalendar ∧ Steady (withHours weekdayCalendar (4 * DAY) (hm 9 0) (hm 17 0)) ∧
    (build (withHours weekdayCalendar (4 * DAY) (hm 9 0) (hm 17 0)) 0 (5 * DAY)).toOption.map
      (fun b => rowsOf b.cal) =
      some [⟨0, 0, none, hm 23 59⟩, ⟨DAY, DAY, none, DAY + hm 23 59⟩,
        ⟨4 * DAY, 4 * DAY + hm 9 0, none, 4 * DAY + hm 17 0⟩,
        ⟨5 * DAY, 5 * DAY + hm 9 0, none, 5 * DAY + hm 17 0⟩] :=
  ⟨steady_of (ordered_of (by decide)) (tame_of (by decide)) (oneSpecial_none rfl rfl rfl rfl) (by decide),
    steady_of (ordered_of (by decide)) (tame_of (by decide)) (oneSpecial_none rfl rfl rfl rfl) (by decide),
    by decide +kernel⟩

/-! ### the classes of the library -/

theorem paired_default {name : String} {cls : CalendarClass} (h : (name, cls) ∈ defaultClasses) :
    PairedBreaks (classConfig cls) := by
  have key : (defaultClasses.all fun p =>
      (classConfig p.2).breakStartTimes.isSome == (classConfig p.2).breakEndTimes.isSome) = true := by
    decide +kernel
  have := List.all_eq_true.1 key _ h
  rw [beq_iff_eq] at this
  exact Iff.of_eq (congrArg (· = true) this)

/-- C81 for the library: adding an ad hoc holiday to any class removes that session and nothing else, if the day has
no early close and is not the only session; if it has an early close in the range, construction fails. -/
theorem c81_default {name : String} {cls : CalendarClass} (h : (name, cls) ∈ defaultClasses)
    (hb : cls.constructFor start stop = .ok b) (hm : DAY ∣ start) (hlow : NP_NAT + 3 * DAY ≤ start) (x : Int) :
    ((∀ u, ¬ SpecialOpen (classConfig cls) start stop (x * DAY) u ∧
        ¬ SpecialClose (classConfig cls) start stop (x * DAY) u) →
      (∃ s ∈ rowsOf b.cal, s.label ≠ x * DAY) →
      ∃ b', build (withHoliday (classConfig cls) (x * DAY)) start stop = .ok b' ∧
        rowsOf b'.cal = (rowsOf b.cal).filter (fun s => decide (s.label ≠ x * DAY)) ∧
        (∀ l, l ∈ b'.earlyCloses ↔ l ∈ b.earlyCloses) ∧ (∀ l, l ∈ b'.lateOpens ↔ l ∈ b.lateOpens) ∧
        (∀ lo, Agree b b' lo (x * DAY - 1 - 2 * DAY)) ∧ ∀ hi, Agree b b' (x * DAY + 1 + 3 * DAY) hi) ∧
    ((∃ u, SpecialOpen (classConfig cls) start stop (x * DAY) u ∨
        SpecialClose (classConfig cls) start stop (x * DAY) u) →
      build (withHoliday (classConfig cls) (x * DAY)) start stop =
        .error (.valueError "Special dates are not trading days.")) := by
  have k := steady_default h
  have hb' := constructFor_build hb
  refine ⟨fun h1 h2 => ?_, fun ⟨u, hu⟩ => c81_holiday_refused k (paired_default h) hb' hm hlow hu⟩
  obtain ⟨b', e, r⟩ := c81_holiday k (paired_default h) hb' hm hlow h1 h2
  exact ⟨b', e, r.1, r.2.1, r.2.2, c81_holiday_far k hb' e hm hlow⟩

/-- The 24/5 calendar with a holiday on Friday, day 1. -/
example : ("24/5", CalendarClass.simple weekdayCalendar) ∈ defaultClasses ∧
    (∀ u, ¬ SpecialOpen weekdayCalendar 0 (4 * DAY) (1 * DAY) u ∧
      ¬ SpecialClose weekdayCalendar 0 (4 * DAY) (1 * DAY) u) ∧
    ((CalendarClass.simple weekdayCalendar).constructFor 0 (4 * DAY)).toOption.map (fun b => b.cal.sessions) =
      some [0, DAY, 4 * DAY] ∧
    (build (withHoliday weekdayCalendar (1 * DAY)) 0 (4 * DAY)).toOption.map (fun b => b.cal.sessions) =
      some [0, 4 * DAY] :=
  ⟨by simp [defaultClasses], fun u => by simp [SpecialOpen, SpecialClose, Applied, SpecialTime, weekdayCalendar],
    by decide +kernel, by decide +kernel⟩

end TC.Props
