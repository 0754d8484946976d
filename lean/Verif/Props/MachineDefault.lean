import Verif.Props.Machine
import Verif.Props.Overlap

/-!
# C80 for the classes of the library
-/

namespace TC.Props
open Spec

variable {M : Machine} {start stop : Int} {b : Built}

/-- The decidable check behind `DatesInside`: the ad hoc days. -/
def adHocInsideB (cfg : Config) : Bool :=
  (cfg.specialOpensAdhoc ++ cfg.specialClosesAdhoc).all fun e => e.2.all fun l =>
    decide (-9223372036854775808 + 4 * DAY ≤ l) && decide (l ≤ 9223372036854775807 - 4 * DAY)

theorem datesInside_of {cfg : Config} (ho : OneSpecial cfg) (h : adHocInsideB cfg = true) : DatesInside cfg := by
  unfold adHocInsideB at h
  simp only [List.all_eq_true, List.mem_append, Bool.and_eq_true, decide_eq_true_eq] at h
  rintro s e l t h1 h2 ((⟨cal, hc, hl⟩ | ⟨ds, hc, hl⟩) | ⟨cal, hc, hl⟩ | ⟨ds, hc, hl⟩)
  · obtain ⟨P, hP⟩ := ho.opens _ hc
    have := ((hP s e l).1 hl).2
    exact ⟨Int.le_trans h1.1 this.1, Int.le_trans this.2 h2.2⟩
  · exact h _ (.inl hc) l hl
  · obtain ⟨P, hP⟩ := ho.closes _ hc
    have := ((hP s e l).1 hl).2
    exact ⟨Int.le_trans h1.1 this.1, Int.le_trans this.2 h2.2⟩
  · exact h _ (.inr hc) l hl

theorem fits_default :
    (defaultClasses.all fun p => nearTimesB (classConfig p.2) && adHocInsideB (classConfig p.2)) = true := by
  decide +kernel

theorem near_default {name : String} {cls : CalendarClass} (h : (name, cls) ∈ defaultClasses) :
    NearTimes (classConfig cls) ∧ DatesInside (classConfig cls) := by
  have := List.all_eq_true.1 fits_default _ h
  simp only [Bool.and_eq_true] at this
  exact ⟨nearTimes_of this.1, datesInside_of (steady_default h).special this.2⟩

/-- C80 for the library: whatever a class of the library constructs with unbounded integers, it constructs with int64
arithmetic, with the same trading minutes and the same counts of minutes; all its instants are int64 and none
is `NaT`. -/
theorem c80_default (hM : Exact M) {name : String} {cls : CalendarClass} (h : (name, cls) ∈ defaultClasses)
    (h1 : InsideInt64 start) (h2 : InsideInt64 stop) :
    buildM M (classConfig cls) start stop = build (classConfig cls) start stop ∧
    ∀ b, cls.constructFor start stop = .ok b →
      buildM M (classConfig cls) start stop = .ok b ∧
      computeAllMinutesM M b.cal.opens b.cal.breakStarts b.cal.breakEnds b.cal.closes =
        computeAllMinutes b.cal.opens b.cal.breakStarts b.cal.breakEnds b.cal.closes ∧
      (∀ s ∈ rowsOf b.cal, ∀ u, (u = s.label ∨ u = s.open ∨ u = s.close ∨
        ∃ x y, s.brk = some (x, y) ∧ (u = x ∨ u = y)) → FitsInt64 u ∧ u ≠ NP_NAT) ∧
      (MINUTE ∣ start → ∀ a e,
        minutesCountM M b.cal a e = .ok (b.cal.minutesCountForSessionsInRange a e)) := by
  have k := steady_default h
  obtain ⟨hn, hd⟩ := near_default h
  have e := c80_build hM k.ordered k.tame hn hd h1 h2
  refine ⟨e, fun b hb => ?_⟩
  have hb' := constructFor_build hb
  exact ⟨e.trans hb', c80_minutes hM k.ordered k.tame hn h1 h2 hb',
    (c80_values k.ordered k.tame hn h1 h2 hb').2,
    fun hm a e => c80_count hM k.ordered k.tame hn k.zoneMinutes k.timeMinutes h1 h2 hm hb' a e⟩

/-- Any range from 1678 to 2261 meets the hypotheses; for instance New York from 1990 to 2100.  (Whether the holiday rules
can be expanded is another question: `c80_library`.) -/
example : ("XNYS", CalendarClass.exchange Xnys.exchange Xnys.zone startDefault) ∈ defaultClasses ∧
    InsideInt64 (dayOf 1678 1 1 * DAY) ∧ InsideInt64 (dayOf 2261 12 31 * DAY) ∧
    InsideInt64 (dayOf 1990 1 1 * DAY) ∧ InsideInt64 (dayOf 2100 1 1 * DAY) ∧ MINUTE ∣ dayOf 1990 1 1 * DAY ∧
    ((CalendarClass.simple weekdayCalendar).constructFor 0 (4 * DAY)).toOption.map
      (fun b => (b.cal.sessions, (minutesCountM checking b.cal 0 (4 * DAY)).toOption)) =
      some ([0, DAY, 4 * DAY], some 4320) := by
  refine ⟨by simp [defaultClasses], ?_, ?_, ?_, ?_, ?_, ?_⟩ <;> (try unfold InsideInt64) <;> decide +kernel

end TC.Props
