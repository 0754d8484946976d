import Verif.Spec.Dates
import Verif.Props.Build

/-!
# The date of a minute names its session in the two calendars of UTC (C93)

`24/7` and `24/5` are outside the list of exchanges of `Verif.Props.Dates`: they have no city. At every minute at which they
are open the session label is the date of UTC; on a weekend `24/5` answers with the Monday after it.
-/

namespace TC.Props
open Spec Spec.Hours

/-- A calendar of whole days of UTC, once built: while it is open the label is the date, and a date that is not one of its
sessions is answered with the first session after it. -/
theorem utc_label {cfg : Config} {start stop : Int} {b : Built}
    (hof : b.cal = Cal.ofSessions (rowsOf b.cal)) (hreg : Regular (rowsOf b.cal))
    (hlab : ∀ l, l ∈ (rowsOf b.cal).map (·.label) ↔ SessionLabel cfg start stop l)
    (hrow : ∀ s ∈ rowsOf b.cal, s.open = s.label ∧ s.close = s.label + hm 23 59 ∧ s.brk = none)
    {t l : Int} (hl : SessionLabel cfg start stop l) (h1 : t ≤ l + hm 23 59)
    (h2 : ∀ l', SessionLabel cfg start stop l' → l' < l → l' + hm 23 59 < t) :
    b.cal.sessionLabelFresh t "next" = .ok l := by
  obtain ⟨s, hs, he⟩ := List.mem_map.1 ((hlab l).2 hl)
  rw [hof, ← he]
  refine (c18_next hreg t).1 s ⟨hs, ?_, ?_⟩
  · rw [(hrow s hs).2.1]
    have : s.label = l := he
    omega
  · intro s' hs' hlt
    have hl' := (hlab s'.label).1 (List.mem_map.2 ⟨s', hs', rfl⟩)
    have := h2 _ hl'
    have h3 := (hrow s hs).2.1
    have h4 := (hrow s' hs').2.1
    have : s.label = l := he
    omega

/-- C93 for `AlwaysOpenCalendar`: at every minute at which it is open the label is the date of UTC. -/
theorem c93_always_open {start stop : Int} (hmid : DAY ∣ start) (hlow : NP_NAT + 3 * DAY ≤ start) (hle : start ≤ stop) :
    ∃ b, build alwaysOpen start stop = .ok b ∧
      ∀ t d, b.cal.isOpenOnMinute t = .ok true → ShowsDate 0 t d →
        b.cal.sessionLabelFresh t "next" = .ok (d * DAY) := by
  obtain ⟨k, hk⟩ := hmid
  obtain ⟨b, hb, hopen, hof, hreg, hlab, hrow⟩ := utc_build (cfg := alwaysOpen) (start := start) (stop := stop)
    rfl rfl rfl rfl rfl rfl rfl ⟨rfl, rfl⟩ ⟨rfl, rfl⟩ ⟨k, hk⟩ hlow
    ⟨start, k, by rw [hk, Int.mul_comm], Int.le_refl _, hle, (isBusinessDay_iff _ _).mp rfl⟩
  refine ⟨b, hb, fun t d hr hd => ?_⟩
  obtain ⟨r, hr', hiff⟩ := hopen t
  rw [hr] at hr'
  cases hr'
  obtain ⟨l, hl, h1, h2⟩ := hiff.1 rfl
  obtain ⟨d', rfl, _⟩ := id hl
  have : d = d' := by
    obtain ⟨h3, h4⟩ := hd
    simp only [DAY, hm] at *
    omega
  subst this
  refine utc_label hof hreg hlab hrow hl h2 fun l' hl' hlt => ?_
  obtain ⟨e, rfl, _⟩ := hl'
  simp only [DAY, hm] at *
  omega

/-- C93 for `WeekdayCalendar`: at every minute at which it is open the label is the date of UTC; at a minute of a Saturday
or Sunday the label is the Monday after, if that is in the range. -/
theorem c93_weekdays {start stop : Int} (hmid : DAY ∣ start) (hlow : NP_NAT + 3 * DAY ≤ start)
    (hne : ∃ d w, start ≤ d * DAY ∧ d * DAY ≤ stop ∧ IsWeekday d w ∧ w ≤ 4) :
    ∃ b, build weekdayCalendar start stop = .ok b ∧
      (∀ t d, b.cal.isOpenOnMinute t = .ok true → ShowsDate 0 t d →
        b.cal.sessionLabelFresh t "next" = .ok (d * DAY)) ∧
      ∀ t d w, ShowsDate 0 t d → IsWeekday d w → 5 ≤ w → start ≤ (d + 7 - w) * DAY → (d + 7 - w) * DAY ≤ stop →
        b.cal.sessionLabelFresh t "next" = .ok ((d + 7 - w) * DAY) := by
  have key : ∀ d, TradingDay weekdayCalendar d ↔ ∃ w, IsWeekday d w ∧ w ≤ 4 := by
    intro d
    unfold TradingDay
    constructor
    · rintro ⟨⟨w, hw, hm⟩, _⟩
      have : w < 5 := by simpa [weekdayCalendar] using hm
      exact ⟨w, hw, by omega⟩
    · rintro ⟨w, hw, hm⟩
      refine ⟨⟨w, hw, ?_⟩, by simp [weekdayCalendar], by simp [weekdayCalendar]⟩
      simp only [weekdayCalendar, decide_eq_true_eq]
      omega
  obtain ⟨b, hb, hopen, hof, hreg, hlab, hrow⟩ := utc_build (cfg := weekdayCalendar) (start := start) (stop := stop)
    rfl rfl rfl rfl rfl rfl rfl ⟨rfl, rfl⟩ ⟨rfl, rfl⟩ hmid hlow (by
      obtain ⟨d, w, h1, h2, h3, h4⟩ := hne
      exact ⟨d * DAY, d, rfl, h1, h2, (key d).2 ⟨w, h3, h4⟩⟩)
  refine ⟨b, hb, fun t d hr hd => ?_, fun t d w hd hw h5 hs1 hs2 => ?_⟩
  · obtain ⟨r, hr', hiff⟩ := hopen t
    rw [hr] at hr'
    cases hr'
    obtain ⟨l, hl, h1, h2⟩ := hiff.1 rfl
    obtain ⟨d', rfl, _⟩ := id hl
    have : d = d' := by
      obtain ⟨h3, h4⟩ := hd
      simp only [DAY, hm] at *
      omega
    subst this
    refine utc_label hof hreg hlab hrow hl h2 fun l' hl' hlt => ?_
    obtain ⟨e, rfl, _⟩ := hl'
    simp only [DAY, hm] at *
    omega
  · obtain ⟨hd1, hd2⟩ := hd
    obtain ⟨w0, w6, k, rfl⟩ := hw
    refine utc_label hof hreg hlab hrow ⟨_, rfl, hs1, hs2, (key _).2 ⟨0, ⟨by omega, by omega, k + 1, by omega⟩, by omega⟩⟩ ?_ ?_
    · simp only [DAY, hm] at *
      omega
    · rintro _ ⟨e, rfl, _, _, he⟩ hlt
      obtain ⟨w', ⟨h1, h2, k', rfl⟩, h4⟩ := (key _).1 he
      have hk : k' ≤ k := by
        simp only [DAY] at *
        omega
      simp only [DAY, hm] at *
      omega

/-- Friday 1970-01-02 to Monday 1970-01-05: the noon of the Friday is open, and the Saturday is in the range. -/
example : DAY ∣ 1 * DAY ∧ NP_NAT + 3 * DAY ≤ 1 * DAY ∧ 1 * DAY ≤ 4 * DAY ∧
    (∃ d w, 1 * DAY ≤ d * DAY ∧ d * DAY ≤ 4 * DAY ∧ IsWeekday d w ∧ w ≤ 4) ∧
    ShowsDate 0 (1 * DAY + hm 12 0) 1 ∧ ShowsDate 0 (2 * DAY + hm 12 0) 2 ∧ IsWeekday 2 5 ∧ (2 + 7 - 5) * DAY ≤ 4 * DAY ∧
    ((build weekdayCalendar (1 * DAY) (4 * DAY)).toOption.map fun b =>
      (b.cal.isOpenOnMinute (1 * DAY + hm 12 0)).toOption) = some (some true) ∧
    ((build alwaysOpen (1 * DAY) (4 * DAY)).toOption.map fun b =>
      (b.cal.isOpenOnMinute (2 * DAY + hm 12 0)).toOption) = some (some true) := by
  refine ⟨by decide, by decide, by decide, ⟨1, 4, by decide, by decide, ?_, by decide⟩, ⟨by decide, by decide⟩, ⟨by decide, by decide⟩, ?_, by decide,
    by decide +kernel, by decide +kernel⟩
  · exact (weekday_iff 1 4).mpr (by decide)
  · exact (weekday_iff 2 5).mpr (by decide)

end TC.Props
