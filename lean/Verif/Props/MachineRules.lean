import Verif.Lemmas.MachineRules
import Verif.Spec.MachineRules
import Verif.Props.MachineDefault
import Verif.Props.Hebrew

/-!
# C80: when the rules of a class of the library can be expanded
-/

namespace TC.Props
open Spec

variable {M : Machine} {start stop : Int}

/-- No offset of the rules is a yearly date given by a function. -/
def noAnnualB (rules : List Rule) : Bool :=
  rules.all fun r => r.offsets.all fun o => match o with | .annual _ => false | _ => true

theorem yearly_of {rules : List Rule} (h : noAnnualB rules = true) : ∀ r ∈ rules, ∀ o ∈ r.offsets, YearlyOffset o := by
  intro r hr o ho
  have := List.all_eq_true.1 (List.all_eq_true.1 h r hr) o ho
  cases o <;> simp_all [YearlyOffset]

theorem yearly_total {f : Int → Int} (hf : Inside f) {k : Option Int} :
    ∀ o ∈ (TaseHolidays.holiday f k).offsets, YearlyOffset o := by
  have h : YearlyOffset (TaseHolidays.offset f) := fun y => by
    have := total_inside hf y
    show jan1 y ≤ total f y ∧ total f y < jan1 (y + 1)
    omega
  intro o ho
  cases k <;> simp [TaseHolidays.holiday] at ho
  · subst ho; exact h
  · rcases ho with rfl | rfl
    · exact h
    · trivial

theorem yearly_xtae : ∀ r ∈ Xtae.exchange.regular, ∀ o ∈ r.offsets, YearlyOffset o := by
  obtain ⟨i1, i2, i3, i4, i5, i6, i7, i8, i9⟩ := inside_all
  simp only [Xtae.exchange, Xtae.regular, List.mem_cons, List.not_mem_nil, or_false]
  rintro r (rfl | rfl | rfl | rfl | rfl | rfl | rfl | rfl | rfl | rfl | rfl | rfl | rfl | rfl | rfl |
    rfl | rfl | rfl | rfl)
  · exact yearly_total i1
  · exact yearly_total i2
  · exact yearly_total i2
  · exact yearly_total i2
  · exact yearly_total i2
  · exact yearly_total i3
  · exact yearly_total i3
  · exact yearly_total i4
  · exact yearly_total i4
  · exact yearly_total i5
  · exact yearly_total i6
  · exact yearly_total i6
  · exact yearly_total i6
  · exact yearly_total i7
  · exact yearly_total i7
  · exact yearly_total i8
  · exact yearly_total i8
  · exact yearly_total i9
  · exact yearly_total i9

/-- The exchange of a class. -/
def exchangeOf : CalendarClass → Option Exchange
  | .exchange x _ _ => some x
  | .precomputed x _ => some x
  | .hongKong => some Xhkg.exchange
  | .simple _ => none

/-- All rules of the exchange are good, and their dates fit for windows from year `lo` to year `hi`. -/
def expandsB (x : Exchange) (lo hi : Int) : Bool :=
  (x.regular.all fun r => goodRuleB r && ruleFitsB r 1970 2200) &&
  x.specialCloses.all fun e => noAnnualB e.2 && e.2.all fun r => goodRuleB r && ruleFitsB r lo hi

/-- Before year `lo` and after year `hi` some rule of special closes fails. -/
def limitedB (x : Exchange) (lo hi : Int) : Bool :=
  (decide (lo = 1677) || x.specialCloses.any fun e => e.2.any fun r => earlyB r lo) &&
  (decide (hi = 2262) || x.specialCloses.any fun e => e.2.any fun r => lateB r hi)

/-- The configuration with its holiday calendars expanded. -/
def expanded (x : Exchange) (z : Tz) (start stop : Int) : Config :=
  { x.config z with
    regularHolidays := some fun _ _ => holidayCalendar x.regular HOLIDAYS_START HOLIDAYS_END
    specialCloses := x.specialCloses.map fun e => (e.1, fun _ _ => holidayCalendar e.2 start stop) }

theorem buildM_expanded (x : Exchange) (z : Tz) :
    buildM M (expanded x z start stop) start stop = buildM M (x.config z) start stop := by
  have hs : specialDatesM M (expanded x z start stop).specialCloses (x.config z).specialClosesAdhoc z start stop =
      specialDatesM M (x.config z).specialCloses (x.config z).specialClosesAdhoc z start stop := by
    unfold specialDatesM expanded Exchange.config
    simp only [List.mapM_map]
    rfl
  have hb : buildScheduleM M (expanded x z start stop) start stop = buildScheduleM M (x.config z) start stop := by
    unfold buildScheduleM
    have e1 : (expanded x z start stop).tz = z := rfl
    have e2 : (expanded x z start stop).specialClosesAdhoc = (x.config z).specialClosesAdhoc := rfl
    have e3 : (x.config z).tz = z := rfl
    rw [e1, e2, hs, e3]
    rfl
  unfold buildM
  rw [hb]

theorem configM_ok {x : Exchange} {z : Tz} {lo hi : Int} (h : expandsB x lo hi = true)
    (hy : ∀ r ∈ x.regular, ∀ o ∈ r.offsets, YearlyOffset o) (h1 : lo ≤ yearOf (start / DAY))
    (h2 : yearOf (start / DAY) ≤ 2262) (h3 : 1677 ≤ yearOf (stop / DAY)) (h4 : yearOf (stop / DAY) ≤ hi) :
    x.configM z start stop = .ok (expanded x z start stop) := by
  unfold expandsB at h
  simp only [Bool.and_eq_true, List.all_eq_true] at h
  obtain ⟨g1, g2⟩ := h
  have r1 : holidayCalendarM x.regular HOLIDAYS_START HOLIDAYS_END =
      .ok (holidayCalendar x.regular HOLIDAYS_START HOLIDAYS_END) :=
    calendar_ok (lo := 1970) (hi := 2200) (fun r hr => goodRule_of (g1 r hr).1) hy
      (List.all_eq_true.2 fun r hr => (g1 r hr).2) (by decide +kernel) (by decide +kernel) (by decide +kernel)
      (by decide +kernel)
  have r2 : (x.specialCloses.mapM fun e => do
        let ds ← holidayCalendarM e.2 start stop
        return (e.1, ds)) = Except.ok (ε := PyErr)
      (x.specialCloses.map fun e => (e.1, holidayCalendar e.2 start stop)) := by
    refine mapM_eq_ok fun e he => ?_
    have := calendar_ok (lo := lo) (hi := hi) (fun r hr => goodRule_of ((g2 e he).2 r hr).1) (yearly_of (g2 e he).1)
      (List.all_eq_true.2 fun r hr => ((g2 e he).2 r hr).2) h1 h2 h3 h4
    rw [this]
    rfl
  unfold Exchange.configM
  rw [r1]
  show (_ >>= _) = _
  rw [r2]
  show Except.ok _ = Except.ok _
  unfold expanded
  rw [List.map_map]
  rfl

theorem configM_error {x : Exchange} {z : Tz} {lo hi : Int} (hg : expandsB x lo hi = true)
    (hy : ∀ r ∈ x.regular, ∀ o ∈ r.offsets, YearlyOffset o) (h : limitedB x lo hi = true)
    (h1 : 1677 ≤ yearOf (start / DAY)) (h4 : yearOf (stop / DAY) ≤ 2262)
    (hout : yearOf (start / DAY) < lo ∨ hi < yearOf (stop / DAY)) :
    x.configM z start stop = .error outOfBounds := by
  unfold expandsB at hg
  simp only [Bool.and_eq_true, List.all_eq_true] at hg
  obtain ⟨g1, g2⟩ := hg
  have r1 : holidayCalendarM x.regular HOLIDAYS_START HOLIDAYS_END =
      .ok (holidayCalendar x.regular HOLIDAYS_START HOLIDAYS_END) :=
    calendar_ok (lo := 1970) (hi := 2200) (fun r hr => goodRule_of (g1 r hr).1) hy
      (List.all_eq_true.2 fun r hr => (g1 r hr).2) (by decide +kernel) (by decide +kernel) (by decide +kernel)
      (by decide +kernel)
  unfold limitedB at h
  simp only [Bool.and_eq_true, Bool.or_eq_true, decide_eq_true_eq, List.any_eq_true] at h
  have key : ∃ e ∈ x.specialCloses, ∃ r ∈ e.2, r.datesM start stop = .error outOfBounds := by
    rcases hout with ho | ho
    · rcases h.1 with h | ⟨e, he, r, hr, hb⟩
      · omega
      · exact ⟨e, he, r, hr, early_sound (goodRule_of ((g2 e he).2 r hr).1) hb ho⟩
    · rcases h.2 with h | ⟨e, he, r, hr, hb⟩
      · omega
      · exact ⟨e, he, r, hr, late_sound (goodRule_of ((g2 e he).2 r hr).1) hb ho⟩
  obtain ⟨e, he, r, hr, hd⟩ := key
  unfold Exchange.configM
  rw [r1]
  show (_ >>= _) = _
  rw [mapM_bounds (fun e => (okOrBounds_calendar e.2 start stop).bind fun ds => .pure (e.1, ds)) he
    (by rw [calendar_bounds hr hd]; rfl)]
  rfl

/-- The class is one of those with recorded holidays only. -/
def recordedB : CalendarClass → Bool
  | .precomputed _ _ => true
  | _ => false

theorem expands_default :
    (defaultClasses.all fun p => match exchangeOf p.2 with
      | none => decide (firstYear p.1 = 1677) && decide (lastYear p.1 = 2262)
      | some x => (!recordedB p.2 || (decide (firstYear p.1 = 1677) && decide (lastYear p.1 = 2262))) &&
        expandsB x (firstYear p.1) (lastYear p.1) && limitedB x (firstYear p.1) (lastYear p.1) &&
        (noAnnualB x.regular || p.1 == "XTAE")) = true := by
  decide +kernel

theorem xtae_class {cls : CalendarClass} (h : ("XTAE", cls) ∈ defaultClasses) :
    cls = .exchange Xtae.exchange Xtae.zone startDefault := by
  simpa [defaultClasses] using h

theorem rules_default {name : String} {cls : CalendarClass} (h : (name, cls) ∈ defaultClasses) {x : Exchange}
    (hx : exchangeOf cls = some x) :
    expandsB x (firstYear name) (lastYear name) = true ∧ limitedB x (firstYear name) (lastYear name) = true ∧
    ∀ r ∈ x.regular, ∀ o ∈ r.offsets, YearlyOffset o := by
  have := List.all_eq_true.1 expands_default _ h
  simp only [hx, Bool.and_eq_true] at this
  refine ⟨this.1.1.2, this.1.2, ?_⟩
  rcases Bool.or_eq_true_iff.1 this.2 with h' | he
  · exact yearly_of h'
  · have := beq_iff_eq.1 he
    subst this
    have := xtae_class h
    subst this
    simp only [exchangeOf, Option.some.injEq] at hx
    subst hx
    exact yearly_xtae

theorem inside_years {u : Int} (h : InsideInt64 u) : 1677 ≤ yearOf (u / DAY) ∧ yearOf (u / DAY) ≤ 2262 := by
  unfold InsideInt64 at h
  simp only [DAY] at h
  have h1 : -106752 ≤ u / DAY := by simp only [DAY]; omega
  have h2 : u / DAY ≤ 106752 := by simp only [DAY]; omega
  have e1 : yearOf (-106752) = 1677 := by decide +kernel
  have e2 : yearOf 106752 = 2262 := by decide +kernel
  exact ⟨e1 ▸ yearOf_mono h1, e2 ▸ yearOf_mono h2⟩

/-- **C80, the library as a whole**: for a start and an end at least four days inside what int64 can express, a class
of the library constructs with machine arithmetic exactly what it constructs with unbounded integers, and raises the
same, as long as it starts and ends in years whose special closes can be expanded; otherwise pandas refuses. -/
theorem c80_library (hM : Exact M) {name : String} {cls : CalendarClass} (h : (name, cls) ∈ defaultClasses)
    (h1 : InsideInt64 start) (h2 : InsideInt64 stop) {y₀ y₁ : Int} (hy₀ : InYear (start / DAY) y₀)
    (hy₁ : InYear (stop / DAY) y₁) :
    (firstYear name ≤ y₀ ∧ y₁ ≤ lastYear name → cls.constructM M start stop = cls.constructFor start stop) ∧
    (y₀ < firstYear name ∨ lastYear name < y₁ → cls.constructM M start stop = .error outOfBounds) := by
  rw [inYear_iff] at hy₀ hy₁
  subst hy₀ hy₁
  obtain ⟨s1, s2⟩ := inside_years h1
  obtain ⟨t1, t2⟩ := inside_years h2
  have hb := (c80_default hM h h1 h2).1
  have ok : ∀ x z, exchangeOf cls = some x → classConfig cls = x.config z →
      (firstYear name ≤ yearOf (start / DAY) ∧ yearOf (stop / DAY) ≤ lastYear name →
        x.initM M z start stop = build (x.config z) start stop) ∧
      (yearOf (start / DAY) < firstYear name ∨ lastYear name < yearOf (stop / DAY) →
        x.initM M z start stop = .error outOfBounds) := by
    intro x z hx hz
    obtain ⟨k1, k2, k3⟩ := rules_default h hx
    constructor
    · rintro ⟨g1, g2⟩
      unfold Exchange.initM
      rw [configM_ok k1 k3 g1 s2 t1 g2]
      show buildM M _ start stop = _
      rw [buildM_expanded, ← hz, hb]
    · intro g
      unfold Exchange.initM
      rw [configM_error k1 k3 k2 s1 t2 g]
      rfl
  cases cls with
  | exchange x z s => exact ok x z rfl rfl
  | precomputed x z =>
    have := ok x z rfl rfl
    refine ⟨fun g => ?_, fun g => ?_⟩
    · simp only [CalendarClass.constructM, CalendarClass.constructFor, Exchange.precomputedInit, this.1 g,
        Option.getD_some]
    · have hc := List.all_eq_true.1 expands_default _ h
      simp only [exchangeOf, recordedB, Bool.not_true, Bool.false_or, Bool.and_eq_true, decide_eq_true_eq] at hc
      omega
  | hongKong =>
    have := ok Xhkg.exchange Xhkg.zone rfl rfl
    refine ⟨fun g => ?_, fun g => ?_⟩
    · simp only [CalendarClass.constructM, CalendarClass.constructFor, Xhkg.init, this.1 g]
    · simp only [CalendarClass.constructM, this.2 g]
      rfl
  | simple cfg =>
    have := List.all_eq_true.1 expands_default _ h
    simp only [exchangeOf, Bool.and_eq_true, decide_eq_true_eq] at this
    refine ⟨fun _ => hb, fun g => ?_⟩
    omega

/-- London can be constructed up to 2260 and no further, Oslo up to 2261, Tel Aviv up to 2262; Stockholm from 1679
on, New York from 1678 on. -/
example : firstYear "XSTO" = 1679 ∧ firstYear "XNYS" = 1678 ∧ lastYear "XLON" = 2260 ∧ lastYear "XOSL" = 2261 ∧
    lastYear "XTAE" = 2262 ∧ InsideInt64 (dayOf 2260 12 31 * DAY) ∧ InsideInt64 (dayOf 2261 1 2 * DAY) ∧
    InYear (dayOf 2260 12 31 * DAY / DAY) 2260 ∧ InYear (dayOf 2261 1 2 * DAY / DAY) 2261 ∧
    ("XLON", CalendarClass.exchange Xlon.exchange Xlon.zone startDefault) ∈ defaultClasses := by
  refine ⟨by decide +kernel, by decide +kernel, by decide +kernel, by decide +kernel, by decide +kernel, ?_, ?_,
    (inYear_iff _ _).2 (by decide +kernel), (inYear_iff _ _).2 (by decide +kernel), by simp [defaultClasses]⟩ <;>
    unfold InsideInt64 <;> decide +kernel

/-- The same in the model: the early closes of London, expanded from 2250 to the end of 2260 and a few days further. -/
example : (Xlon.exchange.specialCloses.map fun e => (holidayCalendarM e.2 (dayOf 2250 1 1 * DAY)
      (dayOf 2260 12 31 * DAY)).toOption.map (·.length)) = [some 22] ∧
    (Xlon.exchange.specialCloses.map fun e => holidayCalendarM e.2 (dayOf 2250 1 1 * DAY) (dayOf 2261 1 2 * DAY)) =
      [.error outOfBounds] := by
  constructor <;> decide +kernel

end TC.Props
