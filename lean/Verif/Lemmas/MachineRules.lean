import Verif.Model.MachineRules
import Verif.Lemmas.HolidayCheck
import Verif.Lemmas.RuleCheck

/-! # Dates of holiday rules that fit into int64 -/

namespace TC
open Spec

theorem stampM_ok {d : Int} (h1 : -106751 ≤ d) (h2 : d ≤ 106751) : stampM d = .ok d := by
  unfold stampM
  rw [if_pos]
  simp only [DAY]; omega

theorem stampM_error {d : Int} (h : d < -106751 ∨ 106751 < d) : stampM d = .error outOfBounds := by
  unfold stampM
  rw [if_neg]
  simp only [DAY]; omega

theorem stampM_cases (d : Int) : stampM d = .ok d ∨ stampM d = .error outOfBounds := by
  unfold stampM; split <;> simp

/-- Either a value or the error of a date that does not fit. -/
def OkOrBounds {α} (p : Py α) : Prop := (∃ a, p = .ok a) ∨ p = .error outOfBounds

theorem OkOrBounds.bind {α β} {p : Py α} {f : α → Py β} (hp : OkOrBounds p) (hf : ∀ a, OkOrBounds (f a)) :
    OkOrBounds (p >>= f) := by
  rcases hp with ⟨a, rfl⟩ | rfl
  · exact hf a
  · exact .inr rfl

theorem OkOrBounds.pure {α} (a : α) : OkOrBounds (Pure.pure a : Py α) := .inl ⟨a, rfl⟩

theorem okOrBounds_stamp (d : Int) : OkOrBounds (stampM d) := by
  rcases stampM_cases d with h | h
  · exact .inl ⟨d, h⟩
  · exact .inr h

theorem OkOrBounds.mapM {α β} {f : α → Py β} (hf : ∀ a, OkOrBounds (f a)) (l : List α) :
    OkOrBounds (l.mapM f) := by
  induction l with
  | nil => exact .inl ⟨[], rfl⟩
  | cons a l ih =>
    rw [List.mapM_cons]
    exact (hf a).bind fun b => ih.bind fun bs => .pure _

theorem OkOrBounds.foldlM {α β} {f : β → α → Py β} (hf : ∀ b a, OkOrBounds (f b a)) (l : List α) (b : β) :
    OkOrBounds (l.foldlM f b) := by
  induction l generalizing b with
  | nil => exact .inl ⟨b, rfl⟩
  | cons a l ih =>
    rw [List.foldlM_cons]
    exact (hf b a).bind fun b => ih b

theorem mapM_bounds {α β} {f : α → Py β} (hf : ∀ a, OkOrBounds (f a)) {l : List α} {a : α} (ha : a ∈ l)
    (h : f a = .error outOfBounds) : l.mapM f = .error outOfBounds := by
  induction l with
  | nil => simp at ha
  | cons b l ih =>
    rw [List.mapM_cons]
    rcases List.mem_cons.1 ha with rfl | hm
    · rw [h]; rfl
    · rcases hf b with ⟨c, hc⟩ | hc
      · rw [hc, ih hm]; rfl
      · rw [hc]; rfl

theorem mapM_eq_ok {α β} {f : α → Py β} {g : α → β} {l : List α} (h : ∀ a ∈ l, f a = .ok (g a)) :
    l.mapM f = .ok (l.map g) := by
  induction l with
  | nil => rfl
  | cons a l ih =>
    rw [List.mapM_cons, h a List.mem_cons_self, ih fun b hb => h b (List.mem_cons_of_mem _ hb)]
    rfl

theorem okOrBounds_applyRule (r : Rule) (d : Int) : OkOrBounds (r.applyRuleM d) := by
  unfold Rule.applyRuleM
  split
  · exact .mapM okOrBounds_stamp _
  · exact (OkOrBounds.foldlM (fun b a => okOrBounds_stamp _) _ _).bind fun e => .pure _

theorem okOrBounds_ofYear (r : Rule) (y : Int) : OkOrBounds (r.ofYearM y) := by
  unfold Rule.ofYearM
  exact (okOrBounds_stamp _).bind fun d => (okOrBounds_applyRule r d).bind fun ds => .pure _

theorem okOrBounds_dates (r : Rule) (start stop : Int) : OkOrBounds (r.datesM start stop) := by
  unfold Rule.datesM
  split
  · exact (okOrBounds_stamp _).bind fun d => .pure _
  · exact (okOrBounds_stamp _).bind fun _ => (okOrBounds_stamp _).bind fun _ =>
      (OkOrBounds.mapM (okOrBounds_ofYear r) _).bind fun _ => .pure _

theorem okOrBounds_calendar (rules : List Rule) (start stop : Int) : OkOrBounds (holidayCalendarM rules start stop) :=
  (OkOrBounds.mapM (fun r => okOrBounds_dates r start stop) _).bind fun _ => .pure _

theorem calendar_bounds {rules : List Rule} {start stop : Int} {r : Rule} (hr : r ∈ rules)
    (h : r.datesM start stop = .error outOfBounds) : holidayCalendarM rules start stop = .error outOfBounds := by
  unfold holidayCalendarM
  rw [mapM_bounds (fun r => okOrBounds_dates r start stop) hr h]
  rfl

/-! ### Years -/

theorem dayOf_year_mono {m k : Int} (hv : ∀ y, Date.Valid ⟨y, m, k⟩) {y y' : Int} (h : y ≤ y') :
    dayOf y m k ≤ dayOf y' m k := by
  by_cases he : y = y'
  · rw [he]; exact Int.le_refl _
  · have h1 := (dayOf_in_year (hv y)).2
    have h2 := (dayOf_in_year (hv y')).1
    have h3 : jan1 (y + 1) ≤ jan1 y' := jan1_le_iff.2 (by omega)
    simp only at h1 h2
    omega

/-! ### How far a rule moves its reference date -/

/-- The dates of the offset's own year, if it has them. -/
def YearlyOffset : Offset → Prop
  | .annual f => ∀ y, jan1 y ≤ f y ∧ f y < jan1 (y + 1)
  | _ => True

/-- Interval of the displacement of an offset. -/
def reach : Offset → Int × Int
  | .days n => (n, n)
  | .easter => (1, 402)
  | .annual _ => (1, 732)
  | .weekday _ n => if 0 < n then (7 * (n - 1), 7 * n - 1) else (7 * n + 1, 7 * (n + 1))
  | .weekOfMonth _ _ => (1, 62)
  | .lastWeekOfMonth _ => (1, 62)

theorem jan1_step (y : Int) : jan1 y + 365 ≤ jan1 (y + 1) ∧ jan1 (y + 1) ≤ jan1 y + 366 := by
  have := jan1_succ y
  split at this <;> omega

theorem nextEaster_reach (u : Int) : u + 1 ≤ nextAnnual easter u ∧ nextAnnual easter u ≤ u + 402 := by
  unfold nextAnnual
  have hu := yearOf_spec u
  have h0 := easter_doy (yearOf u)
  have h1 := easter_doy (yearOf u + 1)
  have hs := jan1_step (yearOf u)
  split <;> omega

theorem nextAnnual_reach {f : Int → Int} (hf : ∀ y, jan1 y ≤ f y ∧ f y < jan1 (y + 1)) (u : Int) :
    u + 1 ≤ nextAnnual f u ∧ nextAnnual f u ≤ u + 732 := by
  unfold nextAnnual
  have hu := yearOf_spec u
  have h0 := hf (yearOf u)
  have h1 := hf (yearOf u + 1)
  have hs := jan1_step (yearOf u)
  have hs' := jan1_step (yearOf u + 1)
  split <;> omega

theorem reach_sound {o : Offset} (hg : GoodOffset o) (hy : YearlyOffset o) (u : Int) :
    u + (reach o).1 ≤ o.apply u ∧ o.apply u ≤ u + (reach o).2 := by
  cases o with
  | easter => exact nextEaster_reach u
  | annual f => exact nextAnnual_reach hy u
  | days n => exact spread_sound hg rfl u
  | weekday wd n => exact spread_sound hg rfl u
  | weekOfMonth week wd => exact spread_sound hg rfl u
  | lastWeekOfMonth wd => exact spread_sound hg rfl u

/-- From every date from `a` to `b` the offsets lead to dates that fit, one after the other. -/
def offsetsFitB : List Offset → Int → Int → Bool
  | [], _, _ => true
  | o :: os, a, b => decide (-106751 ≤ a + (reach o).1) && decide (b + (reach o).2 ≤ 106751) &&
      offsetsFitB os (a + (reach o).1) (b + (reach o).2)

theorem offsetsFit_sound {os : List Offset} (hg : ∀ o ∈ os, GoodOffset o) (hy : ∀ o ∈ os, YearlyOffset o)
    {a b d : Int} (h : offsetsFitB os a b = true) (h1 : a ≤ d) (h2 : d ≤ b) :
    os.foldlM (fun d o => stampM (o.apply d)) d = .ok (os.foldl (fun d o => o.apply d) d) := by
  induction os generalizing a b d with
  | nil => rfl
  | cons o os ih =>
    simp only [offsetsFitB, Bool.and_eq_true, decide_eq_true_eq] at h
    have hr := reach_sound (hg o List.mem_cons_self) (hy o List.mem_cons_self) d
    rw [List.foldlM_cons, List.foldl_cons, stampM_ok (by omega) (by omega)]
    exact ih (fun o ho => hg o (List.mem_cons_of_mem _ ho)) (fun o ho => hy o (List.mem_cons_of_mem _ ho)) h.2
      (by omega) (by omega)

/-- Interval of the displacement of an observance. -/
def obsReach : Obs → Int × Int
  | .followingTuesdayEveryFourYears => (0, 1500)
  | .goodFridayUnlessChristmasNyeFriday => (-1, 400)
  | .processQueenBirthday => (0, 62)
  | _ => (-6, 6)

theorem obsReach_sound {o : Obs} {y m k d : Int} (hv : ∀ y, Date.Valid ⟨y, m, k⟩)
    (h : d ∈ o.apply (dayOf y m k)) :
    dayOf y m k + (obsReach o).1 ≤ d ∧ d ≤ dayOf y m k + (obsReach o).2 := by
  by_cases ho : o = .followingTuesdayEveryFourYears
  · subst ho
    have hval := hv y
    simp only [Obs.apply, List.mem_singleton, followingTuesdayEveryFourYears] at h
    have e := toDate_dayOf hval
    simp only [toDate, Date.mk.injEq] at e
    obtain ⟨e1, e2, e3⟩ := e
    rw [e1, e2, e3] at h
    have hmono := dayOf_year_mono hv (y := y) (y' := y + (4 - y % 4) % 4) (by omega)
    have hb1 := dayOf_in_year (hv y)
    have hb2 := dayOf_in_year (hv (y + (4 - y % 4) % 4))
    simp only at hb1 hb2
    have hj : jan1 (y + (4 - y % 4) % 4 + 1) ≤ jan1 (y + 4) := jan1_le_iff.2 (by omega)
    have s0 := jan1_step y
    have s1 := jan1_step (y + 1)
    have s2 := jan1_step (y + 1 + 1)
    have s3 := jan1_step (y + 1 + 1 + 1)
    have e4 : y + 1 + 1 + 1 + 1 = y + 4 := by omega
    rw [e4] at s3
    have hw : ∀ u, u ≤ addWeekday 1 1 u ∧ addWeekday 1 1 u ≤ u + 6 := fun u => by
      unfold addWeekday weekday; simp; omega
    have := hw (dayOf (y + (4 - y % 4) % 4) m k)
    simp only [obsReach]
    omega
  have tbl : ∀ t : WeekTable, t.all (fun l => l.all fun k => decide (-6 ≤ k ∧ k ≤ 6)) = true →
      ByTable t (dayOf y m k) d → dayOf y m k - 6 ≤ d ∧ d ≤ dayOf y m k + 6 := by
    intro t ht hb
    rw [byTable_iff] at hb
    obtain ⟨l, hl, hd⟩ := hb
    have h1 := List.all_eq_true.1 ht l (List.mem_of_getElem? hl)
    have h2 := List.all_eq_true.1 h1 _ hd
    rw [decide_eq_true_iff] at h2
    omega
  have hc := (obs_iff o ho (dayOf y m k) d).1 h
  cases o with
  | followingTuesdayEveryFourYears => exact absurd rfl ho
  | goodFridayUnlessChristmasNyeFriday =>
    simp only [Obs.apply, goodFridayUnlessChristmasNyeFriday] at h
    split at h
    · simp only [List.mem_singleton] at h
      have := nextEaster_reach (dayOf y m k)
      simp only [obsReach]
      omega
    · simp at h
  | processQueenBirthday =>
    simp only [Obs.apply, List.mem_singleton] at h
    simp only [obsReach]
    rw [h]
    generalize dayOf y m k = u
    unfold processQueenBirthday
    repeat' split
    · unfold addWeekday weekday; simp; omega
    · unfold sundayToMonday; split <;> omega
    · have := addWeekOfMonth_bounds (week := 3) (by omega) 0 u; omega
    · have := addWeekOfMonth_bounds (week := 1) (by omega) 0 u; omega
    · have := addWeekOfMonth_bounds (week := 2) (by omega) 0 u; omega
  | boxingDayObs => simp only [Contributes] at hc; simp only [obsReach]; omega
  | notYear y => simp only [Contributes] at hc; simp only [obsReach]; omega
  | taiwanMakeup =>
    rcases hc with rfl | hc
    · simp only [obsReach]; omega
    · exact tbl _ (by decide) hc.1
  | culturalDiversity => exact tbl _ (by decide) hc.1
  | weekendToMondayExcept ys => exact tbl _ (by decide) hc.1
  | nextMondayOrTuesdayExcept ys => exact tbl _ (by decide) hc.1
  | _ => exact tbl _ (by decide) hc

/-- The rule's reference dates of the years from `y0` to `y1` lead to dates that fit. -/
def yearsFitB (r : Rule) (y0 y1 : Int) : Bool :=
  match r.observance with
  | some o => decide (-106751 ≤ dayOf y0 r.month r.day + (obsReach o).1) &&
      decide (dayOf y1 r.month r.day + (obsReach o).2 ≤ 106751)
  | none => offsetsFitB r.offsets (dayOf y0 r.month r.day) (dayOf y1 r.month r.day)

theorem yearsFit_sound {r : Rule} (hg : GoodRule r) (hy : ∀ o ∈ r.offsets, YearlyOffset o) {y0 y1 y : Int}
    (h : yearsFitB r y0 y1 = true) (h0 : y0 ≤ y) (h1 : y ≤ y1) :
    r.applyRuleM (dayOf y r.month r.day) = .ok (r.applyRule (dayOf y r.month r.day)) := by
  have m0 := dayOf_year_mono hg.date h0
  have m1 := dayOf_year_mono hg.date h1
  unfold yearsFitB at h
  unfold Rule.applyRuleM Rule.applyRule
  split at h
  · rename_i o ho
    simp only [Bool.and_eq_true, decide_eq_true_eq] at h
    rw [ho]
    have := mapM_eq_ok (f := stampM) (g := id) (l := o.apply (dayOf y r.month r.day)) fun d hd => by
      have := obsReach_sound hg.date hd
      exact stampM_ok (by omega) (by omega)
    simpa using this
  · rename_i ho
    rw [ho]
    simp only
    rw [offsetsFit_sound hg.offsets hy h m0 m1]
    rfl

/-- The rule's reference dates of the years from `y0` to `y1` lead to dates that fit, looked at one by one. -/
def yearsListedB (r : Rule) (y0 y1 : Int) : Bool :=
  (List.range (y1 - y0 + 1).toNat).all fun (i : Nat) =>
    decide (r.applyRuleM (dayOf (y0 + i) r.month r.day) = .ok (r.applyRule (dayOf (y0 + i) r.month r.day)))

theorem yearsListed_sound {r : Rule} {y0 y1 y : Int} (h : yearsListedB r y0 y1 = true) (h0 : y0 ≤ y)
    (h1 : y ≤ y1) : r.applyRuleM (dayOf y r.month r.day) = .ok (r.applyRule (dayOf y r.month r.day)) := by
  have := List.all_eq_true.1 h (y - y0).toNat (List.mem_range.2 (by omega))
  rw [decide_eq_true_eq] at this
  have e : y0 + ((y - y0).toNat : Int) = y := by omega
  rw [e] at this
  exact this

/-- First and last reference year of a rule, for windows from year `lo` to year `hi`. -/
def firstRef (r : Rule) (lo : Int) : Int := yearOf (r.startDate.getD (jan1 lo)) - 1
def lastRef (r : Rule) (hi : Int) : Int := yearOf (r.endDate.getD (jan1 hi)) + 1

/-- All dates of the rule fit, for windows that start in year `lo` or later and end in year `hi` or before. -/
def ruleFitsB (r : Rule) (lo hi : Int) : Bool :=
  match r.year with
  | some y => decide (-106751 ≤ dayOf y r.month r.day ∧ dayOf y r.month r.day ≤ 106751)
  | none =>
    decide (-106751 ≤ dayOf (firstRef r lo) r.month r.day) &&
    decide (dayOf (lastRef r hi) r.month r.day ≤ 106751) &&
    (match r.startDate with | none => true | some s => decide (yearOf s ≤ 2262)) &&
    (match r.endDate with | none => true | some e => decide (1677 ≤ yearOf e)) &&
    (yearsFitB r (firstRef r lo) (lastRef r hi) || yearsListedB r (firstRef r lo) (lastRef r hi))

theorem yearOf_jan1 (y : Int) : yearOf (jan1 y) = y := by
  have := jan1_step y
  exact (yearOf_eq_iff _ _).2 ⟨Int.le_refl _, by omega⟩

theorem dayOf_2261 {m k : Int} (hv : ∀ y, Date.Valid ⟨y, m, k⟩) {y : Int} (h : y ≤ 2261) : dayOf y m k ≤ 106751 := by
  have h1 := dayOf_year_mono hv h
  have h2 := (dayOf_in_year (hv 2261)).2
  have : jan1 (2261 + 1) = 106651 := by decide +kernel
  simp only at h2
  omega

theorem dayOf_1678 {m k : Int} (hv : ∀ y, Date.Valid ⟨y, m, k⟩) {y : Int} (h : 1678 ≤ y) : -106751 ≤ dayOf y m k := by
  have h1 := dayOf_year_mono hv h
  have h2 := (dayOf_in_year (hv 1678)).1
  have : jan1 1678 = -106650 := by decide +kernel
  simp only at h2
  omega

theorem ruleFits_sound {r : Rule} (hg : GoodRule r) (hy : ∀ o ∈ r.offsets, YearlyOffset o) {lo hi start stop : Int}
    (h : ruleFitsB r lo hi = true) (h1 : lo ≤ yearOf (start / DAY)) (h2 : yearOf (start / DAY) ≤ 2262)
    (h3 : 1677 ≤ yearOf (stop / DAY)) (h4 : yearOf (stop / DAY) ≤ hi) :
    r.datesM start stop = .ok (r.dates start stop) := by
  unfold ruleFitsB at h
  unfold Rule.datesM Rule.dates
  split at h
  · rename_i y hyr
    rw [hyr]
    simp only [decide_eq_true_eq] at h
    simp only
    rw [stampM_ok h.1 h.2]
    rfl
  · rename_i hyr
    rw [hyr]
    simp only [Bool.and_eq_true, Bool.or_eq_true, decide_eq_true_eq] at h
    obtain ⟨⟨⟨⟨f1, f2⟩, f3⟩, f4⟩, f5⟩ := h
    have a0 : firstRef r lo ≤ yearOf (r.startDate.getD (start / DAY)) - 1 ∧
        yearOf (r.startDate.getD (start / DAY)) - 1 ≤ 2261 := by
      unfold firstRef
      cases hs : r.startDate with
      | none => simp only [Option.getD_none, yearOf_jan1]; omega
      | some s =>
        rw [hs] at f3
        simp only [decide_eq_true_eq] at f3
        simp only [Option.getD_some]; omega
    have b0 : 1678 ≤ yearOf (r.endDate.getD (stop / DAY)) + 1 ∧
        yearOf (r.endDate.getD (stop / DAY)) + 1 ≤ lastRef r hi := by
      unfold lastRef
      cases hs : r.endDate with
      | none => simp only [Option.getD_none, yearOf_jan1]; omega
      | some s =>
        rw [hs] at f4
        simp only [decide_eq_true_eq] at f4
        simp only [Option.getD_some]; omega
    have m0 := dayOf_year_mono hg.date a0.1
    have m1 := dayOf_year_mono hg.date b0.2
    have k : ∀ y, firstRef r lo ≤ y → y ≤ lastRef r hi →
        r.applyRuleM (dayOf y r.month r.day) = .ok (r.applyRule (dayOf y r.month r.day)) := fun y g0 g1 =>
      f5.elim (fun f => yearsFit_sound hg hy f g0 g1) (fun f => yearsListed_sound f g0 g1)
    have hyears : (r.referenceYears start stop).mapM r.ofYearM =
        .ok ((r.referenceYears start stop).map r.ofYear) := by
      refine mapM_eq_ok fun y hyy => ?_
      simp only [Rule.referenceYears, List.mem_map, List.mem_range] at hyy
      obtain ⟨i, hi', rfl⟩ := hyy
      have g0 : firstRef r lo ≤ yearOf (r.startDate.getD (start / DAY)) - 1 + (i : Int) := by omega
      have g1 : yearOf (r.startDate.getD (start / DAY)) - 1 + (i : Int) ≤ lastRef r hi := by omega
      have n0 := dayOf_year_mono hg.date g0
      have n1 := dayOf_year_mono hg.date g1
      unfold Rule.ofYearM Rule.ofYear
      rw [stampM_ok (by omega) (by omega)]
      show (r.applyRuleM _ >>= _) = _
      rw [k _ g0 g1]
      rfl
    simp only
    rw [stampM_ok (by omega) (dayOf_2261 hg.date a0.2), stampM_ok (dayOf_1678 hg.date b0.1) (by omega)]
    show ((r.referenceYears start stop).mapM r.ofYearM >>= _) = _
    rw [hyears]
    show Except.ok _ = Except.ok _
    rw [List.flatMap_def]

theorem calendar_ok {rules : List Rule} (hg : ∀ r ∈ rules, GoodRule r)
    (hy : ∀ r ∈ rules, ∀ o ∈ r.offsets, YearlyOffset o) {lo hi start stop : Int}
    (h : (rules.all fun r => ruleFitsB r lo hi) = true) (h1 : lo ≤ yearOf (start / DAY))
    (h2 : yearOf (start / DAY) ≤ 2262) (h3 : 1677 ≤ yearOf (stop / DAY)) (h4 : yearOf (stop / DAY) ≤ hi) :
    holidayCalendarM rules start stop = .ok (holidayCalendar rules start stop) := by
  unfold holidayCalendarM
  rw [mapM_eq_ok fun r hr => ruleFits_sound (hg r hr) (hy r hr) (List.all_eq_true.1 h r hr) h1 h2 h3 h4]
  show Except.ok _ = Except.ok _
  unfold holidayCalendar rulesDates
  rw [List.flatMap_def]

/-! ### Rules that fail -/

/-- A rule without an end whose date in the year after `hi` is out of bounds. -/
def lateB (r : Rule) (hi : Int) : Bool :=
  r.year.isNone && r.endDate.isNone && decide (106751 < dayOf (hi + 2) r.month r.day)

/-- A rule without a start whose date in the year before `lo` is out of bounds. -/
def earlyB (r : Rule) (lo : Int) : Bool :=
  r.year.isNone && r.startDate.isNone && decide (dayOf (lo - 2) r.month r.day < -106751)

theorem late_sound {r : Rule} (hg : GoodRule r) {hi start stop : Int} (h : lateB r hi = true)
    (hs : hi < yearOf (stop / DAY)) : r.datesM start stop = .error outOfBounds := by
  simp only [lateB, Bool.and_eq_true, Option.isNone_iff_eq_none, decide_eq_true_eq] at h
  obtain ⟨⟨e1, e2⟩, e3⟩ := h
  have hm := dayOf_year_mono hg.date (y := hi + 2) (y' := yearOf (stop / DAY) + 1) (by omega)
  unfold Rule.datesM
  rw [e1, e2]
  simp only [Option.getD_none]
  rw [stampM_error (d := dayOf (yearOf (stop / DAY) + 1) r.month r.day) (by omega)]
  rcases stampM_cases (dayOf (yearOf (r.startDate.getD (start / DAY)) - 1) r.month r.day) with e | e <;> rw [e] <;> rfl

theorem early_sound {r : Rule} (hg : GoodRule r) {lo start stop : Int} (h : earlyB r lo = true)
    (hs : yearOf (start / DAY) < lo) : r.datesM start stop = .error outOfBounds := by
  simp only [earlyB, Bool.and_eq_true, Option.isNone_iff_eq_none, decide_eq_true_eq] at h
  obtain ⟨⟨e1, e2⟩, e3⟩ := h
  have hm := dayOf_year_mono hg.date (y := yearOf (start / DAY) - 1) (y' := lo - 2) (by omega)
  unfold Rule.datesM
  rw [e1, e2]
  simp only [Option.getD_none]
  rw [stampM_error (d := dayOf (yearOf (start / DAY) - 1) r.month r.day) (by omega)]
  rfl

end TC
