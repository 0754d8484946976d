import Verif.Props.EarlyYear

/-!
# Minutes of a year in New York (C98)

Until 1992 early closes were at 14:00; all later ones are at 13:00, so from 1993 on New York has one length of short
sessions too.
-/

namespace TC.Props
open Spec

set_option maxRecDepth 100000

/-- C98 for `XNYS`: the numbers of minutes by the rules. -/
theorem c98_xnys_minutes : MinutesRange (TradesOn Xnys.exchange) (HasEarlyClose Xnys.exchange) 390 210 1993 2200 96180 98520 :=
  minutes_range (k := 208) xnys_check (by decide +kernel) (by decide +kernel) (by decide) (by decide) (by decide +kernel)

/-- C98: from 1993 on an early close in New York is at one o'clock. -/
theorem c98_xnys_time {d t : Int} (hd : dayOf 1993 1 1 ≤ d) (h : ClosesEarly Xnys.exchange d t) : t = hm 13 0 := by
  have hd' : jan1 1993 ≤ d := by
    rw [← dayOf_jan1]
    exact hd
  rcases (c60_xnys d t).1 h with ⟨e, he, rfl, y, ln, hln, hon⟩ | ⟨e, he, rfl, -⟩
  · simp only [Hours.newYorkEarly, List.mem_cons, List.not_mem_nil, or_false] at he
    rcases he with rfl | rfl
    · rfl
    · exfalso
      obtain ⟨-, hfin, -, hday⟩ := hon
      simp only [List.mem_cons, List.not_mem_nil, or_false] at hln
      have hy : y ≤ 1992 := by rcases hln with rfl | rfl <;> exact hfin _ rfl
      have hle : jan1 (y + 1) ≤ jan1 1993 := jan1_le_iff.2 (by omega)
      rcases hln with rfl | rfl
      · have := (inYear_jan1 y).1 ⟨_, _, ((dayNumber_iff _ _).1 hday.1).1, hday.1⟩
        omega
      · obtain ⟨k, hk, -, -, hk28, -⟩ := hday
        have hk' := ((dayNumber_iff _ _).1 hk).2
        have hlen := jan1_mono (y := y) (y' := y + 1) (by omega)
        simp only [dayOf, daysBeforeMonth] at hk'
        split at hk' <;> omega
  · simp only [Hours.newYorkSingle, List.mem_cons, List.not_mem_nil, or_false] at he
    rw [he]

/-- C98 for New York: from 1993 on `minutes_count_for_sessions_in_range` of a year counts 390 minutes for each full session
and 210 for each early close, in all from 96180 to 98520. -/
theorem c98_xnys_year {start stop : Int} {b : Built}
    (hb : (CalendarClass.exchange Xnys.exchange Xnys.zone startDefault).constructFor start stop = .ok b)
    (h1 : dayOf 1901 12 15 * DAY ≤ start) (hmid : DAY ∣ start)
    (hbad : ∀ d ∈ [dayOf 1945 12 24, dayOf 1956 12 24], d * DAY < start ∨ stop < d * DAY)
    {y d₀ d₁ : Int} (hy₀ : 1993 ≤ y) (hy₁ : y ≤ 2200) (hd₀ : DayNumber ⟨y, 1, 1⟩ d₀) (hd₁ : DayNumber ⟨y, 12, 31⟩ d₁)
    (ha : start + DAY ≤ d₀ * DAY) (hc : (d₁ + 2) * DAY ≤ stop) :
    (∃ k : Nat, MinutesOfYear (TradesOn Xnys.exchange) (HasEarlyClose Xnys.exchange) 390 210 y k ∧
      b.cal.minutesCountForSessionsInRange (d₀ * DAY) (d₁ * DAY) = k) ∧
    96180 ≤ b.cal.minutesCountForSessionsInRange (d₀ * DAY) (d₁ * DAY) ∧
    b.cal.minutesCountForSessionsInRange (d₀ * DAY) (d₁ * DAY) ≤ 98520 := by
  have h : ("XNYS", CalendarClass.exchange Xnys.exchange Xnys.zone startDefault) ∈ defaultClasses := by
    simp [defaultClasses]
  have ht : lengthTable.lookup "XNYS" =
      some (dayOf 1901 12 15, [dayOf 1945 12 24, dayOf 1956 12 24], [], [390], [210, 270]) := by decide +kernel
  obtain ⟨k, hk, hlo, hhi⟩ := c98_xnys_minutes.within y hy₀ hy₁
  suffices hs : b.cal.minutesCountForSessionsInRange (d₀ * DAY) (d₁ * DAY) = k by
    refine ⟨⟨k, hk, hs⟩, ?_⟩
    rw [hs]
    omega
  obtain ⟨n, e, hn, he, rfl⟩ := hk
  have hb' := constructFor_build hb
  have hst := steady_default h
  have hlow := table_low ht h1
  have hE := c98_listed h ht hb h1 hmid hbad hd₀ hd₁ ha hc he
  have hT := length_of_days hst hb' hmid hlow (classTrades_iff h) hn hd₀ hd₁
    (by simp only [DAY] at *; omega) (by simp only [DAY] at *; omega)
  obtain ⟨pieces, hp, hcount, -⟩ := counted_pieces h (by decide) ht hb h1 hmid hbad (a := d₀ * DAY) (e := d₁ * DAY)
    (by simp)
  obtain ⟨hof, hreg, -⟩ := gap_regular hst hb' hmid hlow
  have e0 : d₀ = jan1 y := (dayNumber_jan1 _ _).1 hd₀
  have l0 : jan1 1993 ≤ jan1 y := jan1_le_iff.2 hy₀
  rw [hcount, sum_two (E := fun l => l ∈ b.earlyCloses) (n := 390) (m := 210) hp (fun l hlm => by
    rw [hof, (c26_sessions_in_range hreg _ _).1, List.mem_filter, decide_eq_true_eq] at hlm
    obtain ⟨d, ms, rfl, hms, hl⟩ := c88_xnys.keeps start stop b h1 hmid hbad hb' l (by rw [hof]; exact hlm.1)
    obtain ⟨r1, r2⟩ := hl (by simp)
    refine ⟨ms, hms, fun hy => by simpa using c88_xnys.full d _ (r1 hy), fun hy => ?_⟩
    obtain ⟨o, t, ho, ht, hlen⟩ := r2 hy
    have hd : dayOf 1993 1 1 ≤ d := by
      rw [dayOf_jan1]
      have := hlm.2.1
      simp only [DAY] at this
      omega
    have := c98_xnys_time hd ((c60_xnys d t).2 ht)
    simp only [Hours.daily, Hours.always] at ho
    subst this ho
    simp only [hm, MINUTE] at hlen
    omega)]
  have hsum := List.length_eq_countP_add_countP (l := b.cal.sessionsInRange (d₀ * DAY) (d₁ * DAY))
    fun l => decide (l ∈ b.earlyCloses)
  rw [List.countP_eq_length_filter, List.countP_eq_length_filter] at hsum
  simp only [decide_eq_true_eq] at hsum
  rw [hE] at hsum ⊢
  have : ((b.cal.sessionsInRange (d₀ * DAY) (d₁ * DAY)).filter fun l => l ∉ b.earlyCloses).length = n := by omega
  rw [this]

/-- XNYS from 2018 to 2020 can be constructed, and has from 96180 to 98520 minutes in 2019. -/
example : ∃ b, (CalendarClass.exchange Xnys.exchange Xnys.zone startDefault).constructFor (dayOf 2018 1 1 * DAY)
      (dayOf 2020 12 31 * DAY) = .ok b ∧
    96180 ≤ b.cal.minutesCountForSessionsInRange (dayOf 2019 1 1 * DAY) (dayOf 2019 12 31 * DAY) := by
  have hd : TradesOn Xnys.exchange (dayOf 2019 10 16) := trades_of xnys_check (by decide +kernel)
  have hbad : ∀ d ∈ [dayOf 1945 12 24, dayOf 1956 12 24], d * DAY < dayOf 2018 1 1 * DAY ∨ dayOf 2020 12 31 * DAY < d * DAY := by
    decide +kernel
  obtain ⟨b, hb, -⟩ := (c54_xnys_zone (dayOf 2018 1 1 * DAY) (dayOf 2020 12 31 * DAY)
    (by decide +kernel) (Int.dvd_mul_left _ _)).succeeds hbad ⟨_, by decide +kernel, by decide +kernel, hd⟩
  exact ⟨b, hb, (c98_xnys_year hb (by decide +kernel) (Int.dvd_mul_left _ _) hbad (y := 2019) (by decide) (by decide)
    ((dayNumber_iff _ _).2 (by decide +kernel)) ((dayNumber_iff _ _).2 (by decide +kernel)) (by decide +kernel)
    (by decide +kernel)).2.1⟩

end TC.Props
