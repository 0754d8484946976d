import Verif.Props.StartTime
import Verif.Props.Overlap

/-!
# C79 for the classes of the library
-/

namespace TC.Props
open Spec

variable {start stop stop' : Int} {b b' : Built}

theorem holiday_midnight {rules : List Rule} {s e l : Int} (h : l ∈ holidayCalendar rules s e) : DAY ∣ l := by
  have h := (mem_sortInts _ _).1 (List.mem_filter.1 h).1
  obtain ⟨r, -, h⟩ := List.mem_flatMap.1 h
  unfold Rule.dates at h
  split at h
  · rw [List.mem_singleton.1 h]
    exact Int.dvd_mul_left _ _
  · obtain ⟨d, -, rfl⟩ := List.mem_map.1 h
    exact Int.dvd_mul_left _ _

theorem midnight_exchange (x : Exchange) (z : Tz) : MidnightSpecials (x.config z) := by
  rintro s e l t ((⟨cal, h, -⟩ | ⟨ds, h, -⟩) | ⟨cal, h, hl⟩ | ⟨ds, h, hl⟩)
  · simp [Exchange.config] at h
  · simp [Exchange.config] at h
  · obtain ⟨r, -, hr⟩ := List.mem_map.1 h
    cases hr
    exact holiday_midnight hl
  · obtain ⟨r, -, hr⟩ := List.mem_map.1 h
    cases hr
    obtain ⟨d, -, rfl⟩ := List.mem_map.1 hl
    exact Int.dvd_mul_left _ _

theorem midnight_default {name : String} {cls : CalendarClass} (h : (name, cls) ∈ defaultClasses) :
    MidnightSpecials (classConfig cls) := by
  cases cls with
  | exchange x z s => exact midnight_exchange x z
  | precomputed x z => exact midnight_exchange x z
  | hongKong => exact midnight_exchange _ _
  | simple cfg =>
    simp only [defaultClasses, List.mem_cons, List.not_mem_nil, or_false, Prod.mk.injEq,
      CalendarClass.simple.injEq, reduceCtorEq, and_false, false_or] at h
    rcases h with ⟨-, rfl⟩ | ⟨-, rfl⟩ <;>
      rintro s e l t ((⟨cal, h, -⟩ | ⟨ds, h, -⟩) | ⟨cal, h, -⟩ | ⟨ds, h, -⟩) <;>
      simp [classConfig, weekdayCalendar, alwaysOpen] at h

/-- C79 for the library: a calendar of any of its classes, constructed with a start that is not a midnight, has all
its sessions late by the start's time of day and no early closes. -/
theorem c79_default {name : String} {cls : CalendarClass} (h : (name, cls) ∈ defaultClasses)
    (hb : cls.constructFor start stop = .ok b) (hlow : NP_NAT + 3 * DAY ≤ start) (hn : ¬ DAY ∣ start) :
    b.earlyCloses = [] ∧ b.lateOpens = [] ∧
    ∀ s ∈ rowsOf b.cal, ∃ d, LateSession (classConfig cls) (start % DAY) d s :=
  have k := steady_default h
  c79_late (constructFor_build hb) k.ordered k.tame (midnight_default h) hlow hn

/-- The 24/5 calendar from Thursday 1970-01-01 10:30 to the following Monday 10:30. -/
example : ("24/5", CalendarClass.simple weekdayCalendar) ∈ defaultClasses ∧
    ((CalendarClass.simple weekdayCalendar).constructFor (hm 10 30) (4 * DAY + hm 10 30)).toOption.map
      (fun b => rowsOf b.cal) =
      some [⟨hm 10 30, hm 10 30, none, DAY + hm 10 29⟩,
        ⟨DAY + hm 10 30, DAY + hm 10 30, none, 2 * DAY + hm 10 29⟩,
        ⟨4 * DAY + hm 10 30, 4 * DAY + hm 10 30, none, 5 * DAY + hm 10 29⟩] :=
  ⟨by simp [defaultClasses], by decide +kernel⟩

/-- C79 for the library: with a start that is not a midnight, no calendar is constructed if one of the class's early
closes falls into the range. -/
theorem c79_default_refused {name : String} {cls : CalendarClass} (h : (name, cls) ∈ defaultClasses)
    (hlow : NP_NAT + 3 * DAY ≤ start) (hn : ¬ DAY ∣ start) {l u : Int}
    (hu : SpecialOpen (classConfig cls) start stop l u ∨ SpecialClose (classConfig cls) start stop l u) :
    ∃ e, cls.constructFor start stop = .error e := by
  have k := steady_default h
  obtain ⟨e, he⟩ := c79_refused k.ordered k.tame (midnight_default h) hlow hn hu
  cases hc : cls.constructFor start stop with
  | error e => exact ⟨e, rfl⟩
  | ok b => rw [constructFor_build hc] at he; cases he

/-- New York from 2019-01-01 10:30 to the end of the year: the early close of 2019-11-29 is in the range. -/
example : ∃ e, (CalendarClass.exchange Xnys.exchange Xnys.zone startDefault).constructFor
    (dayOf 2019 1 1 * DAY + hm 10 30) (dayOf 2019 12 31 * DAY) = .error e := by
  have hm' : ("XNYS", CalendarClass.exchange Xnys.exchange Xnys.zone startDefault) ∈ defaultClasses := by
    simp [defaultClasses]
  have hr : IsHoliday UsHolidays.usBlackFridayInOrAfter1993 (dayOf 2019 11 29) :=
    (hits_iff (goodRule_of (by decide)) (near_of (goodRule_of (by decide)) (by decide)) _).1 (by decide +kernel)
  refine c79_default_refused hm' (by decide) (by decide) (l := dayOf 2019 11 29 * DAY)
    (u := dayOf 2019 11 29 * DAY + hm 18 0) (.inr ⟨hm 13 0, ?_, ?_, by decide, by decide⟩)
  · have hg : GoodRules (Xnys.exchange.specialRules.map (·.2)) := by
      have h := xnys_check
      unfold Exchange.check at h
      simp only [Bool.and_eq_true] at h
      exact rules_of h.1.1.1.2
    refine (specialTime_exchange hg Xnys.zone).2 ⟨_, rfl, .inl ⟨by decide, by decide,
      UsHolidays.usBlackFridayInOrAfter1993, ?_, hr⟩⟩
    exact List.mem_flatMap.2 ⟨_, List.mem_cons_self, List.mem_map.2 ⟨_, by simp, rfl⟩⟩
  · exact (localize_ok_iff clear_americaNewYork.tame _ _).1 (by decide +kernel)

/-- C79 for the library: with a midnight start, the time of day of the end makes no difference unless a special
close falls between the two ends. -/
theorem c79_default_end {name : String} {cls : CalendarClass} (h : (name, cls) ∈ defaultClasses)
    (hm : DAY ∣ start) (hlow : NP_NAT + 3 * DAY ≤ start) (hday : stop / DAY = stop' / DAY)
    (hb : cls.constructFor start stop = .ok b) (hb' : cls.constructFor start stop' = .ok b')
    (hno : ∀ l u, SpecialOpen (classConfig cls) start stop l u ∨ SpecialClose (classConfig cls) start stop l u →
      u ≤ stop')
    (hno' : ∀ l u, SpecialOpen (classConfig cls) start stop' l u ∨
      SpecialClose (classConfig cls) start stop' l u → u ≤ stop) :
    b.cal = b'.cal ∧ (∀ l, l ∈ b.earlyCloses ↔ l ∈ b'.earlyCloses) ∧
      ∀ l, l ∈ b.lateOpens ↔ l ∈ b'.lateOpens :=
  have k := steady_default h
  c79_end k.ordered k.tame k.special (midnight_default h) hm hlow hday (constructFor_build hb)
    (constructFor_build hb') hno hno'

/-- The 24/5 calendar up to midnight and up to 17:00 of the same day. -/
example : ∃ b, (CalendarClass.simple weekdayCalendar).constructFor 0 (4 * DAY) = .ok b ∧
    (CalendarClass.simple weekdayCalendar).constructFor 0 (4 * DAY + hm 17 0) = .ok b ∧
    b.cal.sessions = [0, DAY, 4 * DAY] :=
  ⟨{ cal := { sessions := [0, DAY, 4 * DAY], opens := [0, DAY, 4 * DAY]
              breakStarts := [NP_NAT, NP_NAT, NP_NAT], breakEnds := [NP_NAT, NP_NAT, NP_NAT]
              closes := [hm 23 59, DAY + hm 23 59, 4 * DAY + hm 23 59] }
     firstTradingSession := 0, lastTradingSession := 4 * DAY, lateOpens := [], earlyCloses := [] },
    by decide +kernel, by decide +kernel, rfl⟩

end TC.Props
