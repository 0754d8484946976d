import Verif.Spec.Horizon
import Verif.Props.Books1
import Verif.Props.Books2
import Verif.Props.Recorded

/-!
# C92: where the recorded dates end
-/

namespace TC.Props
open Spec Spec.Books

set_option maxRecDepth 100000

/-- The feast brings no day off after the year. -/
def feastEndsB (f : Feast) (last : Int) : Bool :=
  f.dates.all fun e => f.off.flatten.all fun o => decide (dayOf e.1 e.2.1 e.2.2 + o ≤ dayOf last 12 31)

theorem after_year {d y last : Int} (hy : InYear d y) (h : last < y) : dayOf last 12 31 < d := by
  have h1 := ((yearOf_eq_iff _ _).1 ((inYear_iff _ _).1 hy)).1
  have h2 := (yearOf_eq_iff (dayOf last 12 31) last).1 (yearOf_dayOf (x := ⟨last, 12, 31⟩) (everyYear_valid (by decide) _))
  have h3 := (jan1_le_iff (y := last + 1) (y' := y)).2 (by omega)
  omega

theorem feast_ends {f : Feast} {last d : Int} (h : feastEndsB f last = true) (hd : dayOf last 12 31 < d) : ¬ f.On d := by
  rintro ⟨e, he, -, -, u, hu, ht⟩
  obtain ⟨l, hl, ho⟩ := (byTable_iff _ _ _).1 ht
  have := List.all_eq_true.1 (List.all_eq_true.1 h e he) (d - u)
    (List.mem_flatten.2 ⟨l, List.mem_of_getElem? hl, ho⟩)
  have hu' := ((dayNumber_iff _ _).1 hu).2
  simp only [decide_eq_true_iff] at this hu'
  omega

theorem onlyAfter_of {x : Exchange} {holiday : Int → Int → Prop} {feasts more : List Feast}
    {closures : List (Int × Int × Int)} {last : Int} (h : FollowsFeasts x holiday (feasts ++ more) closures)
    (hc : (closures.all fun e => decide (e.1 ≤ last)) = true) (hf : (more.all fun f => feastEndsB f last) = true) :
    OnlyAfter x holiday feasts last := by
  intro z start stop b hb hs d y h1 h2 hy hl h70 h22
  have hr : 0 ≤ d ∧ d ≤ 84370 := by
    obtain ⟨a1, a2⟩ := (yearOf_eq_iff _ _).1 ((inYear_iff _ _).1 hy)
    have e0 : jan1 1970 = 0 := by decide
    have e1 : jan1 2201 = 84371 := by decide
    have b1 := (jan1_le_iff (y := 1970) (y' := y)).2 (by omega)
    have b2 := (jan1_le_iff (y := y + 1) (y' := 2201)).2 (by omega)
    omega
  rw [h z start stop b hb hs d h1 h2 hr.1 hr.2]
  have hd := after_year hy hl
  have n1 : ¬ OnDates closures d := by
    rintro ⟨e, he, hd'⟩
    have := of_decide_eq_true (List.all_eq_true.1 hc e he)
    have hyear := (inYear_iff _ _).1 hy
    have := (dayNumber_iff _ _).1 hd'
    rw [← this.2, yearOf_dayOf this.1] at hyear
    simp only at hyear
    omega
  have n2 : ∀ f ∈ more, ¬ f.On d := fun f hf' => feast_ends (List.all_eq_true.1 hf f hf') hd
  constructor
  · rintro ⟨a, -, b, c⟩
    exact ⟨a, fun f hf => b f (List.mem_append_left _ hf), c⟩
  · rintro ⟨a, b, c⟩
    refine ⟨a, n1, fun f hf => ?_, c⟩
    rcases List.mem_append.1 hf with h | h
    · exact b f h
    · exact n2 f h

theorem feasts_nil {x : Exchange} {holiday : Int → Int → Prop} {feasts : List Feast} {closures : List (Int × Int × Int)}
    (h : FollowsFeasts x holiday feasts closures) : FollowsFeasts x holiday (feasts ++ []) closures := by
  rw [List.append_nil]
  exact h

theorem nil_feasts {x : Exchange} {holiday : Int → Int → Prop} {feasts : List Feast} {closures : List (Int × Int × Int)}
    (h : FollowsFeasts x holiday feasts closures) : FollowsFeasts x holiday ([] ++ feasts) closures := by
  rw [List.nil_append]
  exact h

/-- The days of a line in a year, with its bounds. -/
def lineDaysIn (e : Line) (y : Int) : Option (List Int) :=
  if (∀ a ∈ e.first, a ≤ y) ∧ (∀ b ∈ e.final, y ≤ b) ∧ y ∉ e.but then e.day.shape.map (shapeDays · y)
  else some []

theorem lineDaysIn_iff {e : Line} {y : Int} {l : List Int} (h : lineDaysIn e y = some l) (d : Int) : d ∈ l ↔ e.On y d := by
  unfold lineDaysIn at h
  split at h
  · rename_i hc
    obtain ⟨s, hs, rfl⟩ := Option.map_eq_some_iff.1 h
    rw [mem_shapeDays, Line.On, yearly_shape hs]
    constructor
    · exact fun h => ⟨fun a ha => hc.1 a ha, fun b hb => hc.2.1 b hb, hc.2.2, h⟩
    · exact fun h => h.2.2.2
  · rename_i hc
    cases h
    simp only [List.not_mem_nil, false_iff]
    rintro ⟨a, b, c, -⟩
    exact hc ⟨fun x hx => a x hx, fun x hx => b x hx, c⟩

/-- The shape stays within a hundred days of its year. -/
def shapeNearB : Shape → Bool
  | .month m t => decide (1 ≤ m ∧ m ≤ 12) && t.flatten.all fun o => decide (-100 ≤ o ∧ o ≤ 100)
  | .easter n => decide (-100 ≤ n ∧ n ≤ 100)

theorem shape_near {s : Shape} (h : shapeNearB s = true) {y d : Int} (hd : s.On y d) :
    yearOf d - 1 ≤ y ∧ y ≤ yearOf d + 1 := by
  cases s with
  | month m t =>
    simp only [shapeNearB, Bool.and_eq_true, decide_eq_true_iff, List.all_eq_true] at h
    simp only [Shape.On] at hd
    have hv : yearOf (dayOf y m 1) = y := yearOf_dayOf (x := ⟨y, m, 1⟩)
      ⟨h.1.1, h.1.2, by simp, by have := monthLength_bounds y m; simp only; omega⟩
    have : d - dayOf y m 1 ∈ t.flatten := by
      cases hl : t[(weekday (dayOf y m 1)).toNat]? with
      | none => rw [hl] at hd; simp at hd
      | some l =>
        rw [hl] at hd
        exact List.mem_flatten.2 ⟨l, List.mem_of_getElem? hl, hd⟩
    have hb := h.2 _ this
    have := yearOf_near (u := dayOf y m 1) (d := d) (by omega) (by omega)
    omega
  | easter n =>
    simp only [shapeNearB, decide_eq_true_iff] at h
    simp only [Shape.On] at hd
    have := yearOf_near (u := easter y) (d := d) (by omega) (by omega)
    rw [yearOf_easter] at this
    omega

/-- The day is no holiday of the book. -/
def noHolidayB (book : Book) (d : Int) : Bool :=
  book.all fun e => (e.day.shape.map shapeNearB).getD false &&
    [yearOf d - 1, yearOf d, yearOf d + 1].all fun y => ((lineDaysIn e y).map fun l => !l.contains d).getD false

theorem noHoliday_of {book : Book} {d : Int} (h : noHolidayB book d = true) (y : Int) : ¬ book.Holiday y d := by
  rintro ⟨e, he, hd⟩
  obtain ⟨h1, h2⟩ := (Bool.and_eq_true _ _).mp (List.all_eq_true.1 h e he)
  cases hs : e.day.shape with
  | none => rw [hs] at h1; cases h1
  | some s =>
    rw [hs] at h1
    have hn := shape_near h1 ((yearly_shape hs y d).1 hd.2.2.2)
    have hc := List.all_eq_true.1 h2 y (by simp only [List.mem_cons, List.not_mem_nil, or_false]; omega)
    cases hl : lineDaysIn e y with
    | none => rw [hl] at hc; cases hc
    | some l =>
      rw [hl] at hc
      simp only [Option.map_some, Option.getD_some, Bool.not_eq_true', List.contains_eq_mem, decide_eq_false_iff_not] at hc
      exact hc ((lineDaysIn_iff hl d).2 hd)

/-- The day is not off for the feast. -/
def noFeastB (f : Feast) (d : Int) : Bool :=
  f.dates.all fun e =>
    !((f.off[(weekday (dayOf e.1 e.2.1 e.2.2)).toNat]?).getD []).contains (d - dayOf e.1 e.2.1 e.2.2)

theorem noFeast_of {f : Feast} {d : Int} (h : noFeastB f d = true) : ¬ f.On d := by
  rintro ⟨e, he, -, -, u, hu, ht⟩
  obtain ⟨l, hl, ho⟩ := (byTable_iff _ _ _).1 ht
  have := List.all_eq_true.1 h e he
  have hu' := ((dayNumber_iff _ _).1 hu).2
  simp only at hu'
  rw [hu', hl, Option.getD_some, List.contains_iff_mem.2 ho] at this
  cases this

theorem recordedIn_of {x : Exchange} {bad : List Int} (hx : x.check bad = true) {book : Book} {feasts : List Feast} {last : Int} (d : Int)
    (h1 : yearOf d = last) (h2 : 0 ≤ weekday d ∧ weekday d ≤ 4) (h3 : x.tradesB d = false)
    (h4 : (feasts.all fun f => noFeastB f d) = true) (h5 : noHolidayB book d = true) :
    RecordedIn x book.Holiday feasts last :=
  ⟨d, (inYear_iff _ _).2 h1, ⟨_, h2.1, h2.2, (weekday_iff _ _).2 rfl⟩, closed_of_trades (rules_of_check hx) h3,
    fun f hf => noFeast_of (List.all_eq_true.1 h4 f hf), noHoliday_of h5⟩

/-- C92: the dates of the Buddhist holidays and single closures of Bangkok end with 2020. -/
theorem c92_bangkok : EndsIn Xbkk.exchange bangkok.Holiday [] 2020 :=
  ⟨onlyAfter_of (nil_feasts c59_xbkk) (by decide +kernel) (by decide +kernel),
    recordedIn_of xbkk_check (dayOf 2020 5 6) (by decide +kernel) (by decide +kernel) (by decide +kernel) (by decide +kernel)
      (by decide +kernel)⟩

/-- C92: those of the Islamic, Hindu and Buddhist holidays and the common leave of Jakarta end with 2020, the Chinese new
year with 2049. -/
theorem c92_jakarta : EndsIn Xidx.exchange jakarta.Holiday jakartaFeasts 2020 ∧
    EndsIn Xidx.exchange jakarta.Holiday [] 2049 :=
  ⟨⟨onlyAfter_of (more := []) (feasts_nil c59_xidx) (by decide +kernel) (by decide +kernel),
    recordedIn_of xidx_check (dayOf 2020 5 25) (by decide +kernel) (by decide +kernel) (by decide +kernel) (by decide +kernel)
      (by decide +kernel)⟩,
    ⟨onlyAfter_of (nil_feasts c59_xidx) (by decide +kernel) (by decide +kernel),
    recordedIn_of xidx_check (dayOf 2049 2 2) (by decide +kernel) (by decide +kernel) (by decide +kernel) (by decide +kernel)
      (by decide +kernel)⟩⟩

/-- C92: all Islamic holidays of Karachi end with 2020. -/
theorem c92_karachi : EndsIn Xkar.exchange karachi.Holiday [] 2020 :=
  ⟨onlyAfter_of (nil_feasts c59_xkar) (by decide +kernel) (by decide +kernel),
    recordedIn_of xkar_check (dayOf 2020 5 25) (by decide +kernel) (by decide +kernel) (by decide +kernel) (by decide +kernel)
      (by decide +kernel)⟩

/-- C92: those of Manila end with 2019, the Chinese new year with 2049. -/
theorem c92_manila : EndsIn Xphs.exchange manila.Holiday manilaFeasts 2019 ∧
    EndsIn Xphs.exchange manila.Holiday [] 2049 :=
  ⟨⟨onlyAfter_of (more := []) (feasts_nil c59_xphs) (by decide +kernel) (by decide +kernel),
    recordedIn_of xphs_check (dayOf 2019 6 5) (by decide +kernel) (by decide +kernel) (by decide +kernel) (by decide +kernel)
      (by decide +kernel)⟩,
    ⟨onlyAfter_of (nil_feasts c59_xphs) (by decide +kernel) (by decide +kernel),
    recordedIn_of xphs_check (dayOf 2049 2 2) (by decide +kernel) (by decide +kernel) (by decide +kernel) (by decide +kernel)
      (by decide +kernel)⟩⟩

theorem kuala_lumpur_split : kualaLumpurFeasts = kualaLumpurLasting ++
    [{ dates := Feasts.deepavaliMalaysia, off := after 0 }, { dates := Feasts.thaipusamMalaysia, off := after 0 },
     { dates := Feasts.wesakMalaysia, off := after 0 }] := rfl

/-- C92: Deepavali, Thaipusam and Wesak of Kuala Lumpur end with 2020, the other feasts with 2049. -/
theorem c92_kuala_lumpur : EndsIn Xkls.exchange kualaLumpur.Holiday kualaLumpurLasting 2020 ∧
    EndsIn Xkls.exchange kualaLumpur.Holiday [] 2049 :=
  ⟨⟨onlyAfter_of (more := [{ dates := Feasts.deepavaliMalaysia, off := after 0 },
      { dates := Feasts.thaipusamMalaysia, off := after 0 }, { dates := Feasts.wesakMalaysia, off := after 0 }]) (kuala_lumpur_split ▸ c59_xkls)
      (by decide +kernel) (by decide +kernel),
    recordedIn_of xkls_check (dayOf 2020 5 7) (by decide +kernel) (by decide +kernel) (by decide +kernel) (by decide +kernel)
      (by decide +kernel)⟩,
    ⟨onlyAfter_of (nil_feasts c59_xkls) (by decide +kernel) (by decide +kernel),
    recordedIn_of xkls_check (dayOf 2049 2 2) (by decide +kernel) (by decide +kernel) (by decide +kernel) (by decide +kernel)
      (by decide +kernel)⟩⟩

/-- C92: the single closures of Taipei end with 2020, the feasts with 2049. -/
theorem c92_taipei : EndsIn Xtai.exchange taipei.Holiday taipeiFeasts 2020 ∧
    EndsIn Xtai.exchange taipei.Holiday [] 2049 :=
  ⟨⟨onlyAfter_of (more := []) (feasts_nil c59_xtai) (by decide +kernel) (by decide +kernel),
    recordedIn_of xtai_check (dayOf 2020 1 21) (by decide +kernel) (by decide +kernel) (by decide +kernel) (by decide +kernel)
      (by decide +kernel)⟩,
    ⟨onlyAfter_of (nil_feasts c59_xtai) (by decide +kernel) (by decide +kernel),
    recordedIn_of xtai_check (dayOf 2049 2 2) (by decide +kernel) (by decide +kernel) (by decide +kernel) (by decide +kernel)
      (by decide +kernel)⟩⟩

/-- C92: the last single closure of Hong Kong is that of 2026, the feasts end with 2049. -/
theorem c92_hong_kong : EndsIn Xhkg.exchange hongKong.Holiday hongKongFeasts 2026 ∧
    EndsIn Xhkg.exchange hongKong.Holiday [] 2049 :=
  ⟨⟨onlyAfter_of (more := []) (feasts_nil c59_xhkg) (by decide +kernel) (by decide +kernel),
    recordedIn_of xhkg_check (dayOf 2026 4 7) (by decide +kernel) (by decide +kernel) (by decide +kernel) (by decide +kernel)
      (by decide +kernel)⟩,
    ⟨onlyAfter_of (nil_feasts c59_xhkg) (by decide +kernel) (by decide +kernel),
    recordedIn_of xhkg_check (dayOf 2049 2 2) (by decide +kernel) (by decide +kernel) (by decide +kernel) (by decide +kernel)
      (by decide +kernel)⟩⟩

/-- C92: the last single closure of Istanbul is of 2006, the feasts end with 2049. -/
theorem c92_istanbul : EndsIn Xist.exchange istanbul.Holiday istanbulFeasts 2006 ∧
    EndsIn Xist.exchange istanbul.Holiday [] 2049 :=
  ⟨⟨onlyAfter_of (more := []) (feasts_nil c59_xist) (by decide +kernel) (by decide +kernel),
    recordedIn_of xist_check (dayOf 2006 1 13) (by decide +kernel) (by decide +kernel) (by decide +kernel) (by decide +kernel)
      (by decide +kernel)⟩,
    ⟨onlyAfter_of (nil_feasts c59_xist) (by decide +kernel) (by decide +kernel),
    recordedIn_of xist_check (dayOf 2049 9 8) (by decide +kernel) (by decide +kernel) (by decide +kernel) (by decide +kernel)
      (by decide +kernel)⟩⟩

theorem orthodox_before {y e : Int} (hy : y ≤ 2020) (h : OrthodoxEaster y e) : e ≤ dayOf 2020 5 20 := by
  obtain ⟨u, ⟨u0, h0, hu⟩, -, -, h2⟩ := h
  have h0' := (dn (by decide) _ _).1 h0
  have e1 : dayOf 1900 4 3 = -25475 := by decide
  have e2 : dayOf 2020 5 20 = 18402 := by decide
  omega

/-- C92: Orthodox Easter ends with 2020 in Athens. -/
theorem c92_athens : EndsIn Asex.exchange athens.Holiday [] 2020 := by
  refine ⟨fun z start stop b hb hs d y h1 h2 hy hl h70 h22 => ?_, recordedIn_of asex_check (dayOf 2020 4 17)
    (by decide +kernel) (by decide +kernel) (by decide +kernel) (by decide +kernel) (by decide +kernel)⟩
  have hr : 0 ≤ d ∧ d ≤ 84370 := by
    obtain ⟨a1, a2⟩ := (yearOf_eq_iff _ _).1 ((inYear_iff _ _).1 hy)
    have e0 : jan1 1970 = 0 := by decide
    have e1 : jan1 2201 = 84371 := by decide
    have b1 := (jan1_le_iff (y := 1970) (y' := y)).2 (by omega)
    have b2 := (jan1_le_iff (y := y + 1) (y' := 2201)).2 (by omega)
    omega
  rw [c59_asex z start stop b hb hs d h1 h2 hr.1 hr.2]
  have hd := after_year hy hl
  have e1 : dayOf 2020 12 31 = 18627 := by decide
  have e2 : dayOf 2020 5 20 = 18402 := by decide
  have n1 : ¬ OnDates athensClosures d := by
    rintro ⟨e, he, hd'⟩
    have hc : (athensClosures.all fun e => decide (e.1 ≤ 2020)) = true := by decide
    have := of_decide_eq_true (List.all_eq_true.1 hc e he)
    have hyear := (inYear_iff _ _).1 hy
    have := (dayNumber_iff _ _).1 hd'
    rw [← this.2, yearOf_dayOf this.1] at hyear
    simp only at hyear
    omega
  constructor
  · rintro ⟨a, -, c⟩
    exact ⟨a, by simp, fun y' h => c y' (.inl h)⟩
  · rintro ⟨a, -, c⟩
    refine ⟨a, n1, fun y' h => ?_⟩
    rcases h with h | ⟨-, hy', h | h | h | h⟩
    · exact c y' h
    all_goals
      have := orthodox_before hy' h
      omega

/-- What C92 says of the days of both Islamic feasts, as computed. -/
theorem eid_check : ((CommonHolidays.eidAlFitrFirstDay ++ CommonHolidays.eidAlAdhaFirstDay).all fun d =>
    decide (yearOf d < 2021) || decide (4 < weekday d) ||
      !Xist.exchange.tradesB d && Xphs.exchange.tradesB d && Xidx.exchange.tradesB d != (d == dayOf 2021 5 13) &&
        Xkar.exchange.tradesB d != (d == dayOf 2045 8 14)) = true := by
  decide +kernel

/-- C92: the repository has the days of both Islamic feasts until 2049, and Istanbul is closed on them.  From 2021 on every
calendar of Manila, Jakarta and Karachi is open on those that are weekdays, but for a coinciding Ascension and Independence
day. -/
theorem c92_eid {d y : Int} (hd : d ∈ CommonHolidays.eidAlFitrFirstDay ++ CommonHolidays.eidAlAdhaFirstDay)
    (hy : InYear d y) (h : 2021 ≤ y) (hw : Weekday d) :
    ClosedOn Xist.exchange d ∧ OpenOn Xphs.exchange d ∧
    (¬ OnDates [(2021, 5, 13)] d → OpenOn Xidx.exchange d) ∧ (¬ OnDates [(2045, 8, 14)] d → OpenOn Xkar.exchange d) := by
  have hc := List.all_eq_true.1 eid_check d hd
  obtain ⟨w, -, h4, hw'⟩ := hw
  rw [weekday_iff] at hw'
  have e1 : decide (yearOf d < 2021) = false := by rw [(inYear_iff _ _).1 hy]; simpa using h
  have e2 : decide (4 < weekday d) = false := by simp only [decide_eq_false_iff_not]; omega
  rw [e1, e2, Bool.or_false, Bool.false_or] at hc
  simp only [Bool.and_eq_true, Bool.not_eq_true', bne_iff_ne] at hc
  obtain ⟨⟨⟨c1, c2⟩, c3⟩, c4⟩ := hc
  refine ⟨closed_of_trades (rules_of_check xist_check) c1, open_of_trades (rules_of_check xphs_check) c2, fun hn => ?_,
    fun hn => ?_⟩
  · have : (d == dayOf 2021 5 13) = false := beq_eq_false_iff_ne.2 fun he =>
      hn ⟨_, .head _, (dn (by decide) _ _).2 he⟩
    exact open_of_trades (rules_of_check xidx_check) (by simpa [this] using c3)
  · have : (d == dayOf 2045 8 14) = false := beq_eq_false_iff_ne.2 fun he =>
      hn ⟨_, .head _, (dn (by decide) _ _).2 he⟩
    exact open_of_trades (rules_of_check xkar_check) (by simpa [this] using c4)

/-- Such a day: Eid al-Fitr of 2022. -/
example : dayOf 2022 5 2 ∈ CommonHolidays.eidAlFitrFirstDay ∧ InYear (dayOf 2022 5 2) 2022 ∧ Weekday (dayOf 2022 5 2) :=
  ⟨by decide +kernel, (inYear_iff _ _).2 (by decide +kernel), 0, by decide, by decide, (weekday_iff _ _).2 (by decide)⟩

/-- Calendars over years after the horizon exist. -/
example : (∃ b, build (Xbkk.exchange.config Xbkk.zone) (dayOf 2021 1 1 * DAY) (dayOf 2021 12 31 * DAY) = .ok b) ∧
    (∃ b, build (Xkar.exchange.config Xkar.zone) (dayOf 2022 1 1 * DAY) (dayOf 2022 12 31 * DAY) = .ok b) ∧
    (∃ b, build (Xhkg.exchange.config Xhkg.zone) (dayOf 2050 1 1 * DAY) (dayOf 2050 12 31 * DAY) = .ok b) :=
  ⟨build_of c54_xbkk_zone xbkk_check (o := dayOf 2021 2 25) (by decide) (by decide) (by decide) (by decide +kernel),
    build_of c54_xkar_zone xkar_check (o := dayOf 2022 5 3) (by decide) (by decide) (by decide) (by decide +kernel),
    build_of c54_xhkg_zone xhkg_check (o := dayOf 2050 1 4) (by decide) (by decide) (by decide) (by decide +kernel)⟩

end TC.Props
