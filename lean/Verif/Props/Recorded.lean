import Verif.Spec.Recorded
import Verif.Lemmas.Books
import Verif.Props.Moons

/-!
# C91: the recorded holidays of Mumbai, Seoul, Singapore and Shanghai have the days that every year has, but for these
-/

namespace TC.Props
open Spec

set_option maxRecDepth 100000

/-- The days of a shape in a year. -/
def shapeDays : Shape → Int → List Int
  | .month m t, y => ((t[(weekday (dayOf y m 1)).toNat]?).getD []).map (· + dayOf y m 1)
  | .easter n, y => [easter y + n]

theorem mem_shapeDays {s : Shape} {y d : Int} : d ∈ shapeDays s y ↔ s.On y d := by
  cases s with
  | month m t =>
    simp only [shapeDays, Shape.On, List.mem_map]
    constructor
    · rintro ⟨a, ha, rfl⟩
      rw [show a + dayOf y m 1 - dayOf y m 1 = a by omega]
      exact ha
    · exact fun h => ⟨_, h, by omega⟩
  | easter n => simp [shapeDays, Shape.On]

/-- The days of an unconditional line. -/
def lineDays (e : Line) (y : Int) : Option (List Int) :=
  if e.first = none ∧ e.final = none ∧ e.but = [] then e.day.shape.map (shapeDays · y) else none

theorem lineDays_iff {e : Line} {y : Int} {l : List Int} (h : lineDays e y = some l) (d : Int) : d ∈ l ↔ e.On y d := by
  unfold lineDays at h
  split at h
  · rename_i hc
    obtain ⟨s, hs, rfl⟩ := Option.map_eq_some_iff.1 h
    rw [mem_shapeDays, Line.On, yearly_shape hs, hc.1, hc.2.1, hc.2.2]
    simp
  · cases h

/-- What `KeepsBook` says of one day. -/
def keptB (x : Exchange) (but : List (Int × Int × Int)) (d : Int) : Bool :=
  x.tradesB d == (but.map fun e => dayOf e.1 e.2.1 e.2.2).contains d

theorem onDates_days {but : List (Int × Int × Int)} (hv : (but.all fun e => everyYear e.2.1 e.2.2) = true) (d : Int) :
    OnDates but d ↔ (but.map fun e => dayOf e.1 e.2.1 e.2.2).contains d = true := by
  rw [List.contains_iff_mem, List.mem_map]
  constructor
  · rintro ⟨e, he, hd⟩
    exact ⟨e, he, ((dn (List.all_eq_true.1 hv e he) _ _).1 hd).symm⟩
  · rintro ⟨e, he, rfl⟩
    exact ⟨e, he, (dn (List.all_eq_true.1 hv e he) _ _).2 rfl⟩

theorem kept_of {x : Exchange} (hg : GoodRules x.regular) {but : List (Int × Int × Int)}
    (hv : (but.all fun e => everyYear e.2.1 e.2.2) = true) {d : Int} (h : keptB x but d = true) :
    (¬ OnDates but d → ClosedOn x d) ∧ (OnDates but d → OpenOn x d) := by
  rw [onDates_days hv]
  have h' := beq_iff_eq.1 h
  refine ⟨fun hn => closed_of_trades hg ?_, fun ho => open_of_trades hg ?_⟩
  · rw [h']
    simpa using hn
  · rw [h', ho]

/-- The years from `y₀` to `y₁`. -/
def yearsFrom (y₀ y₁ : Int) : List Int := (List.range (y₁ - y₀ + 1).toNat).map fun (i : Nat) => y₀ + i

theorem mem_yearsFrom {y₀ y₁ y : Int} (h0 : y₀ ≤ y) (h1 : y ≤ y₁) : y ∈ yearsFrom y₀ y₁ :=
  List.mem_map.2 ⟨(y - y₀).toNat, List.mem_range.2 (by omega), by omega⟩

/-- Decides `KeepsBook`. -/
def bookKeptB (x : Exchange) (book : Book) (y₀ y₁ : Int) (but : List (Int × Int × Int)) : Bool :=
  (but.all fun e => everyYear e.2.1 e.2.2) &&
  (yearsFrom y₀ y₁).all fun y => book.all fun e => ((lineDays e y).map (·.all (keptB x but))).getD false

theorem keepsBook_of {x : Exchange} (hx : x.check [] = true) {book : Book} {y₀ y₁ : Int} {but : List (Int × Int × Int)}
    (h : bookKeptB x book y₀ y₁ but = true) : KeepsBook x book y₀ y₁ but := by
  intro y d h0 h1 ⟨e, he, hd⟩
  obtain ⟨hv, h⟩ := (Bool.and_eq_true _ _).mp h
  have h := List.all_eq_true.1 (List.all_eq_true.1 h y (mem_yearsFrom h0 h1)) e he
  cases hl : lineDays e y with
  | none => rw [hl] at h; cases h
  | some l =>
    rw [hl] at h
    exact kept_of (rules_of_check hx) hv (List.all_eq_true.1 h d ((lineDays_iff hl d).2 hd))

/-- Decides `KeepsFeast`. -/
def feastKeptB (x : Exchange) (table shifts : List Int) (y₀ y₁ : Int) (but : List (Int × Int × Int)) : Bool :=
  (but.all fun e => everyYear e.2.1 e.2.2) &&
  table.all fun d => decide (yearOf d < y₀) || decide (y₁ < yearOf d) || shifts.all fun s => keptB x but (d + s)

theorem keepsFeast_of {x : Exchange} (hx : x.check [] = true) {table shifts : List Int} {y₀ y₁ : Int}
    {but : List (Int × Int × Int)} (h : feastKeptB x table shifts y₀ y₁ but = true) :
    KeepsFeast x table shifts y₀ y₁ but := by
  intro d hd y hy h0 h1 s hs
  obtain ⟨hv, h⟩ := (Bool.and_eq_true _ _).mp h
  have h := List.all_eq_true.1 h d hd
  rw [(inYear_iff _ _).1 hy] at h
  simp only [Bool.or_eq_true, decide_eq_true_iff] at h
  rcases h with (h | h) | h
  · omega
  · omega
  · exact kept_of (rules_of_check hx) hv (List.all_eq_true.1 h s hs)

/-- Decides `Needed`. -/
theorem needed_of {book : Book} {y₀ y₁ : Int} {but : List (Int × Int × Int)}
    (h : (but.all fun e => everyYear e.2.1 e.2.2 && decide (y₀ ≤ e.1 ∧ e.1 ≤ y₁) &&
      book.any fun l => ((lineDays l e.1).map (·.contains (dayOf e.1 e.2.1 e.2.2))).getD false) = true) :
    Needed book y₀ y₁ but := by
  rintro d ⟨e, he, hd⟩
  have h := List.all_eq_true.1 h e he
  simp only [Bool.and_eq_true, decide_eq_true_iff, List.any_eq_true] at h
  obtain ⟨⟨hv, h0, h1⟩, l, hl, hc⟩ := h
  refine ⟨e.1, h0, h1, l, hl, ?_⟩
  cases hL : lineDays l e.1 with
  | none => rw [hL] at hc; cases hc
  | some ds =>
    rw [hL] at hc
    rw [(dn hv _ _).1 hd]
    exact (lineDays_iff hL _).1 (List.contains_iff_mem.1 hc)

/-- C91: Mumbai is closed on its yearly holidays from 1997 to 2020, but for Good Friday 1997 and four days of 1998. -/
theorem c91_mumbai :
    KeepsBook Xbom.exchange Books.mumbaiYearly 1997 2020
      [(1997, 3, 28), (1998, 1, 26), (1998, 4, 10), (1998, 5, 1), (1998, 10, 2)] ∧
    Needed Books.mumbaiYearly 1997 2020
      [(1997, 3, 28), (1998, 1, 26), (1998, 4, 10), (1998, 5, 1), (1998, 10, 2)] :=
  ⟨keepsBook_of xbom_check (by decide +kernel), needed_of (by decide +kernel)⟩

theorem mumbai_1998_check : ((List.range 365).all fun (i : Nat) =>
    Xbom.exchange.tradesB (dayOf 1998 1 1 + i) == (decide (weekday (dayOf 1998 1 1 + i) < 5) &&
      !([(1998, 4, 9), (1998, 4, 14), (1998, 4, 28), (1998, 12, 25)].map fun (e : Int × Int × Int) =>
        dayOf e.1 e.2.1 e.2.2).contains (dayOf 1998 1 1 + i))) = true := by
  decide +kernel

/-- C91: in 1998 Mumbai is closed on four weekdays only. -/
theorem c91_mumbai_1998 {d : Int} (hy : InYear d 1998) (hw : Weekday d) :
    (OnDates [(1998, 4, 9), (1998, 4, 14), (1998, 4, 28), (1998, 12, 25)] d → ClosedOn Xbom.exchange d) ∧
    (¬ OnDates [(1998, 4, 9), (1998, 4, 14), (1998, 4, 28), (1998, 12, 25)] d → OpenOn Xbom.exchange d) := by
  have hb : dayOf 1998 1 1 ≤ d ∧ d ≤ dayOf 1998 12 31 := by
    obtain ⟨h1, h2⟩ := (yearOf_eq_iff _ _).1 ((inYear_iff _ _).1 hy)
    have e1 : jan1 1998 = dayOf 1998 1 1 := by decide
    have e2 : jan1 (1998 + 1) = dayOf 1998 12 31 + 1 := by decide
    omega
  have e : d = dayOf 1998 1 1 + ((d - dayOf 1998 1 1).toNat : Nat) := by omega
  have hc := List.all_eq_true.1 mumbai_1998_check (d - dayOf 1998 1 1).toNat
    (List.mem_range.2 (by rw [show dayOf 1998 12 31 = dayOf 1998 1 1 + 364 by decide] at hb; omega))
  rw [← e] at hc
  have hc := beq_iff_eq.1 hc
  have hw' : decide (weekday d < 5) = true := by
    obtain ⟨w, h0, h4, hd⟩ := hw
    rw [weekday_iff] at hd
    simp only [decide_eq_true_iff]
    omega
  rw [hw', Bool.true_and] at hc
  rw [onDates_days (by decide)]
  refine ⟨fun h => closed_of_trades (rules_of_check xbom_check) ?_, fun h => open_of_trades (rules_of_check xbom_check) ?_⟩
  · rw [hc, h]; rfl
  · rw [hc, Bool.not_eq_true _ |>.mp h]; rfl

/-- C91: Seoul is closed on its yearly holidays from 1986 to 2021 but for three days, and from 1990 on the lunar new year and
the day after it but in 1996, and on the three days of the mid-autumn festival. -/
theorem c91_seoul :
    KeepsBook Xkrx.exchange Books.seoulYearly 1986 2021 [(1989, 10, 3), (1991, 1, 1), (1993, 12, 31)] ∧
    Needed Books.seoulYearly 1986 2021 [(1989, 10, 3), (1991, 1, 1), (1993, 12, 31)] ∧
    KeepsFeast Xkrx.exchange LunisolarHolidays.chineseLunarNewYearDates [0, 1] 1990 2021
      [(1996, 2, 19), (1996, 2, 20)] ∧
    KeepsFeast Xkrx.exchange LunisolarHolidays.midAutumnFestivalDates [-1, 0, 1] 1990 2021 [] :=
  ⟨keepsBook_of xkrx_check (by decide +kernel), needed_of (by decide +kernel), keepsFeast_of xkrx_check (by decide +kernel),
    keepsFeast_of xkrx_check (by decide +kernel)⟩

/-- C91: Singapore is closed on its yearly holidays from 1986 to 2020 but for Good Friday 1987, and on the first two days
of the Chinese year but for the first days of 1991 and 1994; it is closed on the same days of January. -/
theorem c91_singapore :
    KeepsBook Xses.exchange Books.singaporeYearly 1986 2020 [(1987, 4, 17)] ∧
    Needed Books.singaporeYearly 1986 2020 [(1987, 4, 17)] ∧
    KeepsFeast Xses.exchange LunisolarHolidays.chineseLunarNewYearDates [0, 1] 1986 2020
      [(1991, 2, 15), (1994, 2, 10)] ∧
    (∀ d, OnDates [(1991, 1, 15), (1994, 1, 10)] d → Weekday d ∧ ClosedOn Xses.exchange d) := by
  refine ⟨keepsBook_of xses_check (by decide +kernel), needed_of (by decide +kernel),
    keepsFeast_of xses_check (by decide +kernel), ?_⟩
  rintro d ⟨e, he, hd⟩
  simp only [List.mem_cons, List.not_mem_nil, or_false] at he
  rcases he with rfl | rfl
  · rw [(dn (by decide) _ _).1 hd]
    exact ⟨⟨1, by decide, by decide, (weekday_iff _ _).2 (by decide +kernel)⟩,
      closed_of_trades (rules_of_check xses_check) (by decide +kernel)⟩
  · rw [(dn (by decide) _ _).1 hd]
    exact ⟨⟨0, by decide, by decide, (weekday_iff _ _).2 (by decide +kernel)⟩,
      closed_of_trades (rules_of_check xses_check) (by decide +kernel)⟩

/-- C91: Shanghai is closed from 1999 to 2025 on its yearly holidays and on the first three days of the Chinese year, and
from 2008 on the qingming, dragon boat and mid-autumn festivals but that of 2025. -/
theorem c91_shanghai :
    KeepsBook Xshg.exchange Books.shanghaiYearly 1999 2025 [] ∧
    KeepsFeast Xshg.exchange LunisolarHolidays.chineseLunarNewYearDates [0, 1, 2] 1999 2025 [] ∧
    KeepsFeast Xshg.exchange LunisolarHolidays.qingmingFestivalDates [0] 2008 2025 [] ∧
    KeepsFeast Xshg.exchange LunisolarHolidays.dragonBoatFestivalDates [0] 2008 2025 [] ∧
    KeepsFeast Xshg.exchange LunisolarHolidays.midAutumnFestivalDates [0] 2008 2025 [(2025, 10, 6)] :=
  ⟨keepsBook_of xshg_check (by decide +kernel), keepsFeast_of xshg_check (by decide +kernel),
    keepsFeast_of xshg_check (by decide +kernel), keepsFeast_of xshg_check (by decide +kernel),
    keepsFeast_of xshg_check (by decide +kernel)⟩

/-- Days of the books: a holiday that is kept, one that is not, a feast in each table; and calendars with these days. -/
example : Books.mumbaiYearly.Holiday 1999 (dayOf 1999 1 26) ∧ Books.mumbaiYearly.Holiday 1998 (dayOf 1998 1 26) ∧
    Books.singaporeYearly.Holiday 2011 (dayOf 2011 5 2) ∧
    (∃ d ∈ LunisolarHolidays.chineseLunarNewYearDates, InYear d 1994 ∧ OnDates [(1994, 2, 10)] d) ∧
    (∃ d ∈ LunisolarHolidays.midAutumnFestivalDates, InYear d 2025 ∧ OnDates [(2025, 10, 6)] d) :=
  ⟨⟨_, .head _, (lineDays_iff (l := [dayOf 1999 1 26]) (by decide +kernel) _).1 (by simp)⟩,
    ⟨_, .head _, (lineDays_iff (l := [dayOf 1998 1 26]) (by decide +kernel) _).1 (by simp)⟩,
    ⟨_, .tail _ (.head _), (lineDays_iff (l := [dayOf 2011 5 2]) (by decide +kernel) _).1 (by simp)⟩,
    ⟨dayOf 1994 2 10, by decide +kernel, (inYear_iff _ _).2 (by decide +kernel), _, .head _, (dn (by decide) _ _).2 rfl⟩,
    ⟨dayOf 2025 10 6, by decide +kernel, (inYear_iff _ _).2 (by decide +kernel), _, .head _, (dn (by decide) _ _).2 rfl⟩⟩

example : (∃ b, build (Xbom.exchange.config Xbom.zone) (dayOf 1998 1 1 * DAY) (dayOf 1998 12 31 * DAY) = .ok b) ∧
    (∃ b, build (Xkrx.exchange.config Xkrx.zone) (dayOf 1991 1 1 * DAY) (dayOf 1996 12 31 * DAY) = .ok b) ∧
    (∃ b, build (Xses.exchange.config Xses.zone) (dayOf 1991 1 1 * DAY) (dayOf 1994 12 31 * DAY) = .ok b) ∧
    (∃ b, build (Xshg.exchange.config Xshg.zone) (dayOf 2025 1 1 * DAY) (dayOf 2025 12 31 * DAY) = .ok b) :=
  ⟨build_of c54_xbom_zone xbom_check (o := dayOf 1998 1 26) (by decide) (by decide) (by decide) (by decide +kernel),
    build_of c54_xkrx_zone xkrx_check (o := dayOf 1996 2 19) (by decide) (by decide) (by decide) (by decide +kernel),
    build_of c54_xses_zone xses_check (o := dayOf 1994 2 10) (by decide) (by decide) (by decide) (by decide +kernel),
    build_of c54_xshg_zone xshg_check (o := dayOf 2025 10 6) (by decide) (by decide) (by decide) (by decide +kernel)⟩

end TC.Props
