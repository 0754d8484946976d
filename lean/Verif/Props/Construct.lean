import Verif.Lemmas.Construct
import Verif.Props.Exchanges1
import Verif.Props.Exchanges2
import Verif.Props.Exchanges3
import Verif.Props.Exchanges4

/-!
# C40: calendars with recorded holidays never extend beyond their records
-/

namespace TC.Props
open Spec

theorem precomputed_eq {x : Exchange} {lo hi : Int} (hl : npMin x.adhoc = .ok lo)
    (hh : npMax x.adhoc = .ok hi) (z : Tz) (start stop : Option Int) :
    x.precomputedInit z start stop =
      (build (x.config z) (start.getD (dayOf (yearOf lo) 1 1 * DAY))
        (stop.getD (dayOf (yearOf hi) 12 31 * DAY)) >>= checkYears (yearOf lo) (yearOf hi)) := by
  unfold Exchange.precomputedInit
  rw [hl, hh]
  rfl

theorem checked {cfg : Config} {start stop lo hi : Int} {b : Built} :
    (build cfg start stop >>= checkYears lo hi) = .ok b ↔ build cfg start stop = .ok b ∧
      ∀ l ∈ b.cal.sessions, lo ≤ yearOfInstant l ∧ yearOfInstant l ≤ hi := by
  rw [bind_ok_iff]
  constructor
  · rintro ⟨b', h, h'⟩
    rcases checkYears_cases lo hi b' with hc | ⟨why, hc⟩
    · have h2 : b' = b := by rw [hc] at h'; exact Except.ok.inj h'
      subst h2
      exact ⟨h, (checkYears_ok h lo hi).1 hc⟩
    · rw [hc] at h'; cases h'
  · rintro ⟨h, h'⟩
    exact ⟨b, h, (checkYears_ok h lo hi).2 h'⟩

theorem refused {cfg : Config} {start stop lo hi : Int} {b : Built} (h : build cfg start stop = .ok b)
    (hn : ¬ ∀ l ∈ b.cal.sessions, lo ≤ yearOfInstant l ∧ yearOfInstant l ≤ hi) :
    ∃ why, (build cfg start stop >>= checkYears lo hi) = .error (.valueError why) := by
  rw [h]
  rcases checkYears_cases lo hi b with hc | ⟨why, hc⟩
  · exact absurd ((checkYears_ok h lo hi).1 hc) hn
  · exact ⟨why, hc⟩

theorem allRecorded_iff {xs : List Int} {lo hi : Int} (hl : npMin xs = .ok lo) (hh : npMax xs = .ok hi)
    (b : Built) : AllRecorded xs b ↔
      ∀ l ∈ b.cal.sessions, yearOf lo ≤ yearOfInstant l ∧ yearOfInstant l ≤ yearOf hi := by
  unfold AllRecorded yearOfInstant
  simp only [recorded_iff hl hh, inYear_iff, forall_eq']

/-- C40.  A calendar with precomputed holidays is constructed exactly if the base class constructs it and
all its sessions are in years from the first to the last recorded one. -/
theorem c40_exact (x : Exchange) (hne : x.adhoc ≠ []) (z : Tz) (start stop : Int) (b : Built) :
    x.precomputedInit z (some start) (some stop) = .ok b ↔
      build (x.config z) start stop = .ok b ∧ AllRecorded x.adhoc b := by
  obtain ⟨lo, hl⟩ := npMin_exists hne
  obtain ⟨hi, hh⟩ := npMax_exists hne
  rw [precomputed_eq hl hh, allRecorded_iff hl hh, checked]
  rfl

/-- C40.  Otherwise it raises: `ValueError` if a session lies in a year not recorded, else what the base
class raises. -/
theorem c40_refuses (x : Exchange) (hne : x.adhoc ≠ []) (z : Tz) (start stop : Int) :
    (∀ b, build (x.config z) start stop = .ok b → ¬ AllRecorded x.adhoc b →
      ∃ why, x.precomputedInit z (some start) (some stop) = .error (.valueError why)) ∧
    ∀ e, build (x.config z) start stop = .error e →
      x.precomputedInit z (some start) (some stop) = .error e := by
  obtain ⟨lo, hl⟩ := npMin_exists hne
  obtain ⟨hi, hh⟩ := npMax_exists hne
  rw [precomputed_eq hl hh]
  refine ⟨fun b h hn => ?_, fun e h => ?_⟩
  · rw [allRecorded_iff hl hh] at hn
    exact refused h hn
  · simp only [Option.getD_some]
    rw [h]
    rfl

/-- C40.  The default bounds are January 1 of the first and December 31 of the last recorded year. -/
theorem c40_default (x : Exchange) (z : Tz) (y y' d d' : Int)
    (hy : FirstYear x.adhoc y) (hy' : LastYear x.adhoc y')
    (hd : DayNumber ⟨y, 1, 1⟩ d) (hd' : DayNumber ⟨y', 12, 31⟩ d') (start stop : Option Int) :
    x.precomputedInit z none stop = x.precomputedInit z (some (d * DAY)) stop ∧
    x.precomputedInit z start none = x.precomputedInit z start (some (d' * DAY)) := by
  have hne : x.adhoc ≠ [] := by
    obtain ⟨⟨e, he, _⟩, _⟩ := hy
    exact List.ne_nil_of_mem he
  obtain ⟨lo, hl⟩ := npMin_exists hne
  obtain ⟨hi, hh⟩ := npMax_exists hne
  rw [firstYear_iff hl] at hy
  rw [lastYear_iff hh] at hy'
  have e := ((dayNumber_iff _ _).1 hd).2
  have e' := ((dayNumber_iff _ _).1 hd').2
  simp only at e e'
  rw [hy] at e
  rw [hy'] at e'
  simp only [precomputed_eq hl hh, Option.getD_none, Option.getD_some, e, e']
  exact ⟨trivial, trivial⟩

/-- Korea meets the hypotheses of `c40_default` with 1986 and 2021. -/
example : FirstYear Xkrx.exchange.adhoc 1986 ∧ LastYear Xkrx.exchange.adhoc 2021 ∧
    DayNumber ⟨1986, 1, 1⟩ (dayOf 1986 1 1) ∧ DayNumber ⟨2021, 12, 31⟩ (dayOf 2021 12 31) :=
  ⟨(firstYear_iff (m := dayOf 1986 1 1) (by decide +kernel) _).2 (by decide +kernel),
    (lastYear_iff (m := dayOf 2021 12 31) (by decide +kernel) _).2 (by decide +kernel),
    (dayNumber_iff _ _).2 ⟨by unfold Date.Valid; decide, rfl⟩,
    (dayNumber_iff _ _).2 ⟨by unfold Date.Valid; decide, rfl⟩⟩

/-- C40.  Without any recorded holiday nothing can be constructed. -/
theorem c40_no_records (x : Exchange) (hx : x.adhoc = []) (z : Tz) (start stop : Option Int) :
    ∃ why, x.precomputedInit z start stop = .error (.valueError why) := by
  unfold Exchange.precomputedInit
  rw [hx]
  exact ⟨_, rfl⟩

/-- What holds of a precomputed calendar with holidays recorded for the years `y` to `y'`: whatever the
bounds asked for, a constructed calendar has no session outside these years; and the default bounds
give a calendar with exactly the trading days of these years. -/
def CoversYears (x : Exchange) (z : Tz) (y y' : Int) : Prop :=
  (∀ start stop b, x.precomputedInit z start stop = .ok b →
    ∀ l ∈ b.cal.sessions, ∀ yl, InYear (l / DAY) yl → y ≤ yl ∧ yl ≤ y') ∧
  ∃ b, x.precomputedInit z none none = .ok b ∧
    ∀ l, l ∈ b.cal.sessions ↔ ∃ d yl, l = d * DAY ∧ InYear d yl ∧ y ≤ yl ∧ yl ≤ y' ∧ TradesOn x d

theorem coversYears_of {x : Exchange} {z : Tz} {first y y' lo hi : Int}
    (hc : ConstructibleFrom x z first []) (hl : npMin x.adhoc = .ok lo) (hh : npMax x.adhoc = .ok hi)
    (hy : yearOf lo = y) (hy' : yearOf hi = y') (hf : first ≤ dayOf y 1 1)
    (ht : ∃ d, dayOf y 1 1 ≤ d ∧ d ≤ dayOf y' 12 31 ∧ TradesOn x d) : CoversYears x z y y' := by
  subst hy hy'
  constructor
  · intro start stop b h l hl' yl hyl
    rw [precomputed_eq hl hh, checked] at h
    rw [inYear_iff] at hyl
    rw [← hyl]
    exact h.2 l hl'
  · have hB := hc (dayOf (yearOf lo) 1 1 * DAY) (dayOf (yearOf hi) 12 31 * DAY)
      (by simp only [DAY]; omega) (Int.dvd_mul_left _ _)
    obtain ⟨d, hd1, hd2, hd⟩ := ht
    obtain ⟨b, hb, -⟩ := hB.succeeds (by simp)
      ⟨d, by simp only [DAY]; omega, by simp only [DAY]; omega, hd⟩
    have hlab := fun l => hB.labels hb l
    have hyear : ∀ d, dayOf (yearOf lo) 1 1 * DAY ≤ d * DAY ∧ d * DAY ≤ dayOf (yearOf hi) 12 31 * DAY ↔
        yearOf lo ≤ yearOf d ∧ yearOf d ≤ yearOf hi := by
      intro d
      have e1 : dayOf (yearOf lo) 1 1 = jan1 (yearOf lo) := by
        simp [dayOf, daysBeforeMonth]
      have e2 : dayOf (yearOf hi) 12 31 + 1 = jan1 (yearOf hi + 1) := by
        have := next_month (yearOf hi) 12 (by decide) (by decide)
        rw [if_pos rfl, show monthLength (yearOf hi) 12 = 31 by simp [monthLength]] at this
        have h31 := dayOf_one (yearOf hi) 12 31
        have e3 : dayOf (yearOf hi + 1) 1 1 = jan1 (yearOf hi + 1) := by simp [dayOf, daysBeforeMonth]
        omega
      have hs := yearOf_spec d
      have a1 : jan1 (yearOf lo) ≤ d ↔ yearOf lo ≤ yearOf d := by
        constructor
        · intro h
          have : yearOf (jan1 (yearOf lo)) = yearOf lo := by
            rw [yearOf_eq_iff]
            exact ⟨Int.le_refl _, Int.not_le.1 fun hc => by have := jan1_le_iff.1 hc; omega⟩
          rw [← this]
          exact yearOf_mono h
        · intro h
          have := (jan1_le_iff (y := yearOf lo) (y' := yearOf d)).2 h
          omega
      have a2 : d < jan1 (yearOf hi + 1) ↔ yearOf d ≤ yearOf hi := by
        constructor
        · intro h
          apply Decidable.byContradiction
          intro hc
          have := (jan1_le_iff (y := yearOf hi + 1) (y' := yearOf d)).2 (by omega)
          omega
        · intro h
          have := (jan1_le_iff (y := yearOf d + 1) (y' := yearOf hi + 1)).2 (by omega)
          omega
      rw [← a1, ← a2, ← e2, e1]
      simp only [DAY]
      omega
    refine ⟨b, ?_, fun l => ?_⟩
    · rw [precomputed_eq hl hh, checked]
      refine ⟨hb, fun l hl' => ?_⟩
      obtain ⟨d, rfl, h1, h2, -⟩ := (hlab l).1 hl'
      unfold yearOfInstant
      rw [day_ediv]
      exact (hyear d).1 ⟨h1, h2⟩
    · rw [hlab]
      simp only [inYear_iff]
      constructor
      · rintro ⟨d, rfl, h1, h2, h3⟩
        have := (hyear d).1 ⟨h1, h2⟩
        exact ⟨d, _, rfl, rfl, this.1, this.2, h3⟩
      · rintro ⟨d, _, rfl, rfl, h1, h2, h3⟩
        have := (hyear d).2 ⟨h1, h2⟩
        exact ⟨d, rfl, this.1, this.2, h3⟩

/-- C40 for `XKRXExchangeCalendar`: recorded from 1986 to 2021. -/
theorem c40_xkrx : CoversYears Xkrx.exchange Xkrx.zone 1986 2021 :=
  coversYears_of (lo := dayOf 1986 1 1) (hi := dayOf 2021 12 31) c54_xkrx_zone (by decide +kernel)
    (by decide +kernel) (by decide +kernel) (by decide +kernel) (by decide +kernel)
    ⟨dayOf 2019 10 16, by decide +kernel, by decide +kernel, trades_of xkrx_check (by decide +kernel)⟩

/-- C40 for `XBOMExchangeCalendar`: recorded from 1997 to 2020. -/
theorem c40_xbom : CoversYears Xbom.exchange Xbom.zone 1997 2020 :=
  coversYears_of (lo := dayOf 1997 1 23) (hi := dayOf 2020 12 25) c54_xbom_zone (by decide +kernel)
    (by decide +kernel) (by decide +kernel) (by decide +kernel) (by decide +kernel)
    ⟨dayOf 2019 10 16, by decide +kernel, by decide +kernel, trades_of xbom_check (by decide +kernel)⟩

/-- C40 for `XSESExchangeCalendar`: recorded from 1986 to 2020. -/
theorem c40_xses : CoversYears Xses.exchange Xses.zone 1986 2020 :=
  coversYears_of (lo := dayOf 1986 1 1) (hi := dayOf 2020 12 25) c54_xses_zone (by decide +kernel)
    (by decide +kernel) (by decide +kernel) (by decide +kernel) (by decide +kernel)
    ⟨dayOf 2019 10 16, by decide +kernel, by decide +kernel, trades_of xses_check (by decide +kernel)⟩

/-- C40 for `XSHGExchangeCalendar`: recorded from 1999 to 2025. -/
theorem c40_xshg : CoversYears Xshg.exchange Xshg.zone 1999 2025 :=
  coversYears_of (lo := dayOf 1999 1 1) (hi := dayOf 2025 10 4) c54_xshg_zone (by decide +kernel)
    (by decide +kernel) (by decide +kernel) (by decide +kernel) (by decide +kernel)
    ⟨dayOf 2019 10 16, by decide +kernel, by decide +kernel, trades_of xshg_check (by decide +kernel)⟩

/-! ### Hong Kong -/

theorem mapM_ok {f : List Int → Py Int} : ∀ {ts : List (List Int)} {ms : List Int},
    ts.mapM f = .ok ms → (∀ t ∈ ts, ∃ m ∈ ms, f t = .ok m) ∧ ∀ m ∈ ms, ∃ t ∈ ts, f t = .ok m
  | [], ms, h => by
    rw [List.mapM_nil] at h
    cases h
    simp
  | t :: ts, ms, h => by
    rw [List.mapM_cons] at h
    simp only [bind_ok_iff] at h
    obtain ⟨m, hm, ms', hms, h⟩ := h
    cases h
    obtain ⟨h1, h2⟩ := mapM_ok hms
    constructor
    · intro t' ht
      rcases List.mem_cons.1 ht with rfl | ht
      · exact ⟨m, by simp, hm⟩
      · obtain ⟨m', h3, h4⟩ := h1 t' ht
        exact ⟨m', by simp [h3], h4⟩
    · intro m' hm'
      rcases List.mem_cons.1 hm' with rfl | hm'
      · exact ⟨t, by simp, hm⟩
      · obtain ⟨t', h3, h4⟩ := h2 m' hm'
        exact ⟨t', by simp [h3], h4⟩

/-- The checks of `XHKGExchangeCalendar.__init__`, for any tables. -/
theorem tables_checked {ts : List (List Int)} {mins maxs : List Int} {e l : Int}
    (h1 : ts.mapM npMin = .ok mins) (h2 : npMax mins = .ok e) (h3 : ts.mapM npMax = .ok maxs)
    (h4 : npMin maxs = .ok l) (y : Int) :
    (yearOf e ≤ y ∧ y ≤ yearOf l) ↔ ∀ t ∈ ts, Recorded t y := by
  obtain ⟨a1, a2⟩ := mapM_ok h1
  obtain ⟨b1, b2⟩ := mapM_ok h3
  obtain ⟨c1, c2⟩ := npMax_ok h2
  obtain ⟨d1, d2⟩ := npMin_ok h4
  constructor
  · rintro ⟨h5, h6⟩ t ht
    obtain ⟨lo, hlo, hlo'⟩ := a1 t ht
    obtain ⟨hi, hhi, hhi'⟩ := b1 t ht
    rw [recorded_iff hlo' hhi']
    have := yearOf_mono (c2 lo hlo)
    have := yearOf_mono (d2 hi hhi)
    omega
  · intro h
    obtain ⟨t, ht, ht'⟩ := a2 e c1
    obtain ⟨u, hu, hu'⟩ := b2 l d1
    obtain ⟨_, _, hx⟩ := b1 t ht
    obtain ⟨_, _, hy⟩ := a1 u hu
    have h5 := (recorded_iff ht' hx y).1 (h t ht)
    have h6 := (recorded_iff hy hu' y).1 (h u hu)
    omega

theorem xhkg_bounds : ∃ mins maxs e l, Xhkg.lunisolarHolidays.mapM npMin = .ok mins ∧
    npMax mins = .ok e ∧ Xhkg.lunisolarHolidays.mapM npMax = .ok maxs ∧ npMin maxs = .ok l ∧
    yearOf e = 1960 ∧ yearOf l = 2049 := by
  have h1 : Xhkg.lunisolarHolidays.mapM npMin >>= npMax = .ok (dayOf 1960 10 6) := by decide +kernel
  have h2 : Xhkg.lunisolarHolidays.mapM npMax >>= npMin = .ok (dayOf 2049 2 2) := by decide +kernel
  rw [bind_ok_iff] at h1 h2
  obtain ⟨mins, h3, h4⟩ := h1
  obtain ⟨maxs, h5, h6⟩ := h2
  exact ⟨mins, maxs, _, _, h3, h4, h5, h6, by decide +kernel, by decide +kernel⟩

theorem xhkg_eq (z : Tz) (start stop : Int) : Xhkg.init z start stop =
    (build (Xhkg.exchange.config z) start stop >>= checkYears 1960 2049) := by
  obtain ⟨mins, maxs, e, l, h1, h2, h3, h4, h5, h6⟩ := xhkg_bounds
  unfold Xhkg.init
  rw [h1, h3, ← h5, ← h6]
  have ok : ∀ {α β : Type} (x : α) (f : α → Py β), ((Except.ok x : Py α) >>= f) = f x :=
    fun _ _ => rfl
  simp only [ok, h2, h4]

/-- C40 for `XHKGExchangeCalendar`: it is constructed exactly if the base class constructs it and all six
lunisolar tables record the years of all sessions; otherwise it raises `ValueError` or what the base
class raises. -/
theorem c40_xhkg (z : Tz) (start stop : Int) :
    (∀ b, Xhkg.init z start stop = .ok b ↔ build (Xhkg.exchange.config z) start stop = .ok b ∧
      ∀ t ∈ Xhkg.lunisolarHolidays, AllRecorded t b) ∧
    (∀ b, build (Xhkg.exchange.config z) start stop = .ok b →
      (¬ ∀ t ∈ Xhkg.lunisolarHolidays, AllRecorded t b) →
      ∃ why, Xhkg.init z start stop = .error (.valueError why)) ∧
    ∀ e, build (Xhkg.exchange.config z) start stop = .error e → Xhkg.init z start stop = .error e := by
  have key : ∀ b : Built, (∀ l ∈ b.cal.sessions, 1960 ≤ yearOfInstant l ∧ yearOfInstant l ≤ 2049) ↔
      ∀ t ∈ Xhkg.lunisolarHolidays, AllRecorded t b := by
    intro b
    obtain ⟨mins, maxs, e, l, h1, h2, h3, h4, h5, h6⟩ := xhkg_bounds
    have := tables_checked h1 h2 h3 h4
    rw [h5, h6] at this
    unfold AllRecorded
    simp only [inYear_iff, forall_eq', this, yearOfInstant]
    exact ⟨fun h t ht l hl => h l hl t ht, fun h l hl t ht => h t ht l hl⟩
  rw [xhkg_eq]
  refine ⟨fun b => ?_, fun b h hn => ?_, fun e h => ?_⟩
  · rw [checked, key]
  · rw [← key] at hn
    exact refused h hn
  · rw [h]; rfl

/-- Hong Kong in October 2019 can be constructed. -/
example : ∃ b, Xhkg.init Xhkg.zone (dayOf 2019 10 1 * DAY) (dayOf 2019 10 31 * DAY) = .ok b := by
  have hB := c54_xhkg_zone (dayOf 2019 10 1 * DAY) (dayOf 2019 10 31 * DAY) (by decide +kernel)
    (Int.dvd_mul_left _ _)
  obtain ⟨b, hb, -⟩ := hB.succeeds (by simp)
    ⟨dayOf 2019 10 16, by decide +kernel, by decide +kernel, trades_of xhkg_check (by decide +kernel)⟩
  refine ⟨b, ?_⟩
  rw [xhkg_eq, checked]
  refine ⟨hb, fun l hl => ?_⟩
  obtain ⟨d, rfl, h1, h2, -⟩ := (hB.labels hb l).1 hl
  have e1 : yearOf (dayOf 2019 10 1) = 2019 := by decide +kernel
  have e2 : yearOf (dayOf 2019 10 31) = 2019 := by decide +kernel
  have := yearOf_mono (d := dayOf 2019 10 1) (d' := d) (by simp only [DAY] at *; omega)
  have := yearOf_mono (d := d) (d' := dayOf 2019 10 31) (by simp only [DAY] at *; omega)
  unfold yearOfInstant
  rw [day_ediv]
  omega

/-- C40 for `XHKGExchangeCalendar`: no session before 1960 or after 2049. -/
theorem c40_xhkg_years (z : Tz) (start stop : Int) (b : Built) (h : Xhkg.init z start stop = .ok b) :
    ∀ l ∈ b.cal.sessions, ∀ y, InYear (l / DAY) y → 1960 ≤ y ∧ y ≤ 2049 := by
  rw [xhkg_eq, checked] at h
  intro l hl y hy
  rw [inYear_iff] at hy
  rw [← hy]
  exact h.2 l hl

end TC.Props
