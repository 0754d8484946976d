import Verif.Lemmas.Together
import Verif.Props.Agree
import Verif.Props.Books1
import Verif.Props.Books2
import Verif.Props.RuleBooks
import Verif.Props.Clocks

/-!
# C86: markets that are open at the same time
-/

namespace TC.Props
open Spec Spec.Books Spec.Hours

set_option maxRecDepth 100000

variable {start stop : Int} {b₁ b₂ : Built}

/-- Two exchanges with daily hours: if on every session of the first its hours are within those of the second,
the second is open whenever the first is. -/
theorem within_of {x₁ x₂ : Exchange} {z₁ z₂ : Tz} {first₁ first₂ o₁ c₁ o₂ c₂ : Int} {bad₁ bad₂ : List Int}
    {E₁ E₂ a₁ a₂ : Int → Int → Prop}
    (hk₁ : KeepsUtc x₁ z₁ first₁ bad₁ (Hours.daily o₁ c₁ E₁) a₁) (st₁ : Steady (x₁.config z₁))
    (hk₂ : KeepsUtc x₂ z₂ first₂ bad₂ (Hours.daily o₂ c₂ E₂) a₂) (st₂ : Steady (x₂.config z₂))
    (hb₁ : build (x₁.config z₁) start stop = .ok b₁) (hb₂ : build (x₂.config z₂) start stop = .ok b₂)
    (hmid : DAY ∣ start) (hf₁ : first₁ * DAY ≤ start) (hf₂ : first₂ * DAY ≤ start) (hlow : NP_NAT + 3 * DAY ≤ start)
    (hbad₁ : ∀ d ∈ bad₁, d * DAY < start ∨ stop < d * DAY) (hbad₂ : ∀ d ∈ bad₂, d * DAY < start ∨ stop < d * DAY)
    (hl : ∀ l ∈ b₁.cal.sessions, l ∈ b₂.cal.sessions)
    (hd : ∀ d : Int, d * DAY ∈ b₁.cal.sessions → start ≤ d * DAY → d * DAY ≤ stop →
      ∃ i₁ i₂ k₁ k₂, a₁ (d + o₁ / DAY) i₁ ∧ a₂ (d + o₂ / DAY) i₂ ∧ a₁ d k₁ ∧ a₂ d k₂ ∧
        o₂ - i₂ ≤ o₁ - i₁ ∧ c₁ - k₁ ≤ c₂ - k₂ ∧ (∀ t, E₁ d t → t ≤ c₁) ∧
        ∀ t, E₂ d t → c₁ - k₁ ≤ t - k₂ ∨ ∃ t', E₁ d t' ∧ t' - k₁ ≤ t - k₂ ∧ 0 ≤ t' - k₁) :
    OpenWithin b₁.cal b₂.cal := by
  obtain ⟨ss₁, e₁, r₁, f₁⟩ := rows_of_utc hk₁ st₁ rfl hb₁ hmid hf₁ hlow hbad₁
  obtain ⟨ss₂, e₂, r₂, f₂⟩ := rows_of_utc hk₂ st₂ rfl hb₂ hmid hf₂ hlow hbad₂
  refine open_within e₁ r₁ f₁ e₂ r₂ f₂ hl fun d s₁ s₂ hm g₁ g₂ => ?_
  obtain ⟨sch, e, c, -⟩ := build_parts hb₁
  obtain ⟨d', h1, h2, h3, -⟩ := ((schedule_labels e hmid).2 _).1 (c ▸ hm)
  obtain ⟨i₁, i₂, k₁, k₂, p1, p2, p3, p4, p5, p6, p7, p8⟩ := hd d hm h2 h3
  exact day_within g₁ g₂ h2 p1 p2 p3 p4 p5 p6 p7 p8

/-! ## Early closes -/

theorem on_every {x : Yearly} {y d : Int} (h : x.On y d) : (every x).On y d :=
  ⟨by simp [every], by simp [every], by simp [every], h⟩

theorem on_since {x : Yearly} {a y d : Int} (ha : a ≤ y) (h : x.On y d) : (since a x).On y d :=
  ⟨by simpa [since] using ha, by simp [since], by simp [since], h⟩

theorem early_daily {early : List (Int × Book)} {T c d t : Int} (h : EarlyByBook early [] d t)
    (hT : early.map Prod.fst = [T]) (hc : T ≤ c) : t ≤ c := by
  rcases h with ⟨e, he, rfl, -⟩ | ⟨e, he, -⟩
  · have : e.1 ∈ early.map Prod.fst := List.mem_map_of_mem he
    rw [hT] at this
    have := List.mem_singleton.1 this
    omega
  · cases he

theorem euronext_early {d t : Int} : EarlyByBook euronextEarly [] d t ↔
    t = hm 14 5 ∧ ((∃ w ∈ weekdays, IsWeekday d w) ∧
      ∃ y, DayNumber ⟨y, 12, 24⟩ d ∨ 2002 ≤ y ∧ DayNumber ⟨y, 12, 31⟩ d) := by
  constructor
  · rintro (⟨e, he, rfl, y, l, hl, h1, h2, h3, h4⟩ | ⟨e, he, -⟩)
    · simp only [euronextEarly, List.mem_singleton] at he
      subst he
      simp only [List.mem_cons, List.not_mem_nil, or_false] at hl
      rcases hl with rfl | rfl
      · exact ⟨rfl, h4.2, y, .inl h4.1⟩
      · exact ⟨rfl, h4.2, y, .inr ⟨h1 _ rfl, h4.1⟩⟩
    · cases he
  · rintro ⟨rfl, hw, y, h | ⟨h1, h⟩⟩
    · exact .inl ⟨_, .head _, rfl, y, _, .head _, on_every ⟨h, hw⟩⟩
    · exact .inl ⟨_, .head _, rfl, y, _, .tail _ (.head _), on_since h1 ⟨h, hw⟩⟩

theorem lisbon_early {d t : Int} : EarlyByBook lisbonEarly [] d t ↔
    t = hm 13 5 ∧ ((∃ w ∈ weekdays, IsWeekday d w) ∧
      ∃ y, 2003 ≤ y ∧ DayNumber ⟨y, 12, 24⟩ d ∨ DayNumber ⟨y, 12, 31⟩ d) := by
  constructor
  · rintro (⟨e, he, rfl, y, l, hl, h1, h2, h3, h4⟩ | ⟨e, he, -⟩)
    · simp only [lisbonEarly, List.mem_singleton] at he
      subst he
      simp only [List.mem_cons, List.not_mem_nil, or_false] at hl
      rcases hl with rfl | rfl
      · exact ⟨rfl, h4.2, y, .inl ⟨h1 _ rfl, h4.1⟩⟩
      · exact ⟨rfl, h4.2, y, .inr h4.1⟩
    · cases he
  · rintro ⟨rfl, hw, y, ⟨h1, h⟩ | h⟩
    · exact .inl ⟨_, .head _, rfl, y, _, .head _, on_since h1 ⟨h, hw⟩⟩
    · exact .inl ⟨_, .head _, rfl, y, _, .tail _ (.head _), on_every ⟨h, hw⟩⟩

theorem madrid_early {d t : Int} : EarlyByBook madridEarly [] d t ↔
    t = hm 14 0 ∧ ((∃ w ∈ weekdays, IsWeekday d w) ∧
      ∃ y, 2012 ≤ y ∧ (DayNumber ⟨y, 12, 24⟩ d ∨ DayNumber ⟨y, 12, 31⟩ d)) := by
  constructor
  · rintro (⟨e, he, rfl, y, l, hl, h1, h2, h3, h4⟩ | ⟨e, he, -⟩)
    · simp only [madridEarly, List.mem_singleton] at he
      subst he
      simp only [List.mem_cons, List.not_mem_nil, or_false] at hl
      rcases hl with rfl | rfl
      · exact ⟨rfl, h4.2, y, h1 _ rfl, .inl h4.1⟩
      · exact ⟨rfl, h4.2, y, h1 _ rfl, .inr h4.1⟩
    · cases he
  · rintro ⟨rfl, hw, y, h1, h | h⟩
    · exact .inl ⟨_, .head _, rfl, y, _, .head _, on_since h1 ⟨h, hw⟩⟩
    · exact .inl ⟨_, .head _, rfl, y, _, .tail _ (.head _), on_since h1 ⟨h, hw⟩⟩

/-- From Christmas 2002 on, the early closes of Lisbon are on the days of those of the other markets of Euronext. -/
theorem lisbon_same {d : Int} (h : dayOf 2002 12 24 < d) :
    (∃ t, EarlyByBook lisbonEarly [] d t) ↔ ∃ t, EarlyByBook euronextEarly [] d t := by
  simp only [euronext_early, lisbon_early, exists_and_right, exists_eq, true_and]
  refine and_congr_right fun _ => exists_congr fun y => ?_
  have h24 : DayNumber ⟨y, 12, 24⟩ d ↔ d = dayOf y 12 24 := dn (by decide) _ _
  have h31 : DayNumber ⟨y, 12, 31⟩ d ↔ d = dayOf y 12 31 := dn (by decide) _ _
  rw [h24, h31]
  have hy : ∀ k, 24 ≤ k → k ≤ 31 → d = dayOf y 12 k → (k = 24 → 2003 ≤ y) ∧ 2002 ≤ y := by
    intro k h1 h2 e
    have : yearOf (dayOf y 12 k) = y := yearOf_dayOf (x := ⟨y, 12, k⟩) ⟨by simp, by simp, by simp; omega, by simp [monthLength]; omega⟩
    have h3 := yearOf_mono (Int.le_of_lt h)
    rw [e, this] at h3
    have h4 : yearOf (dayOf 2002 12 24) = 2002 := by decide +kernel
    rw [h4] at h3
    refine ⟨fun hk => ?_, h3⟩
    rcases Int.lt_or_eq_of_le h3 with h5 | h5
    · omega
    · subst h5 hk
      omega
  constructor
  · rintro (⟨_, h⟩ | h)
    · exact .inl h
    · exact .inr ⟨(hy 31 (by omega) (by omega) h).2, h⟩
  · rintro (h | ⟨_, h⟩)
    · exact .inl ⟨(hy 24 (by omega) (by omega) h).1 rfl, h⟩
    · exact .inr h

/-- A market with holidays on the eves has no session when Euronext closes early. -/
theorem eve_closed {x : Exchange} {z : Tz} {book : Book} {cl : List (Int × Int × Int)} {d t : Int}
    (hB : FollowsBook x book.Holiday cl)
    (hb : build (x.config z) start stop = .ok b₁) (hmid : DAY ∣ start) (h24 : every Books.christmasEve ∈ book)
    (h31 : every Books.newYearsEve ∈ book) (h0 : 0 ≤ start) (h1 : stop < dayOf 2201 1 1 * DAY)
    (hs : d * DAY ∈ b₁.cal.sessions) (h2 : start ≤ d * DAY) (h3 : d * DAY ≤ stop) :
    ¬ EarlyByBook euronextEarly [] d t := by
  rw [euronext_early]
  have he : dayOf 2201 1 1 = 84371 := by decide +kernel
  rw [he] at h1
  have hd0 : 0 ≤ d := by simp only [DAY] at *; omega
  have hd1 : d ≤ 84370 := by simp only [DAY] at *; omega
  rintro ⟨-, -, y, h | ⟨-, h⟩⟩
  · exact closed_of (y := y) hB hd0 hd1 ⟨_, h24, on_every h⟩
      z start stop b₁ hb hmid h2 h3 hs
  · exact closed_of (y := y) hB hd0 hd1 ⟨_, h31, on_every h⟩
      z start stop b₁ hb hmid h2 h3 hs

/-! ## Europe -/

theorem nine : hm 9 1 / DAY = 0 := by decide

/-- Markets with the hours and the clock of Amsterdam. -/
theorem europe_within {x : Exchange} {z : Tz} {first c₁ : Int} {E₁ : Int → Int → Prop}
    (hk₁ : KeepsUtc x z first [] (Hours.daily (hm 9 1) c₁ E₁) (Ahead (Clocks.europe (hm 1 0))))
    (st₁ : Steady (x.config z)) (hc : c₁ ≤ hm 17 30) (he₁ : ∀ d t, E₁ d t → t ≤ c₁)
    (hb₁ : build (x.config z) start stop = .ok b₁)
    (hb₂ : build (Xams.exchange.config Xams.zone) start stop = .ok b₂) (hmid : DAY ∣ start)
    (hf : first * DAY ≤ start) (h96 : jan1 1996 * DAY ≤ start)
    (hl : ∀ l ∈ b₁.cal.sessions, l ∈ b₂.cal.sessions)
    (hE : ∀ d t, d * DAY ∈ b₁.cal.sessions → start ≤ d * DAY → d * DAY ≤ stop → EarlyByBook euronextEarly [] d t →
      ∃ t', E₁ d t' ∧ t' ≤ t ∧ hm 2 0 ≤ t') : OpenWithin b₁.cal b₂.cal := by
  have hj : jan1 1996 = 9496 := by decide +kernel
  have hn : NP_NAT + 3 * DAY ≤ start := by rw [hj] at h96; simp only [DAY, NP_NAT] at *; omega
  refine within_of hk₁ st₁ c63_xams (steady_default (name := "XAMS") (cls := .exchange Xams.exchange Xams.zone startDefault)
    (by simp [defaultClasses])) hb₁ hb₂ hmid hf ?_ hn (by simp) (by simp) hl fun d hd h1 h2 => ?_
  · have : dayOf 1700 1 2 ≤ 9496 := by decide +kernel
    rw [hj] at h96; simp only [DAY] at *; omega
  have hd' : jan1 1996 ≤ d := by simp only [DAY] at *; omega
  obtain ⟨k, hk, hk1, hk2⟩ := europe_ahead (std := hm 1 0) hd'
  have hk2 : k ≤ hm 2 0 := by simp only [hm] at *; omega
  refine ⟨k, k, k, k, by rw [nine, Int.add_zero]; exact hk, by rw [nine, Int.add_zero]; exact hk, hk, hk, by omega,
    by omega, he₁ d, fun t ht => ?_⟩
  obtain ⟨t', h3, h4, h5⟩ := hE d t hd h1 h2 ht
  exact .inr ⟨t', h3, by omega, by omega⟩

/-! ## New York -/

theorem year_of_dayNumber {y m k d : Int} (h : DayNumber ⟨y, m, k⟩ d) : y = yearOf d := by
  obtain ⟨v, e⟩ := (dayNumber_iff _ _).1 h
  rw [← e]
  exact (yearOf_dayOf v).symm

/-- From 1976 on the half days of the futures markets are holidays of New York. -/
theorem halfDay_holiday {y d : Int} (h : usHalfDays.Holiday y d) (hy : 1976 ≤ yearOf d) : NewYorkHoliday y d := by
  obtain ⟨l, hl, h1, -, -, h4⟩ := h
  unfold NewYorkHoliday
  simp only [usHalfDays, List.mem_cons, List.not_mem_nil, or_false] at hl
  rcases hl with rfl | rfl | rfl | rfl | rfl | rfl
  · exact .inr (.inl ⟨h1 _ rfl, h4⟩)
  · have : y = yearOf d := by
      obtain ⟨k, hk, -⟩ := h4
      exact year_of_dayNumber hk
    exact .inr (.inr (.inr (.inl ⟨by omega, h4⟩)))
  · exact .inr (.inr (.inr (.inr (.inr (.inl ⟨h1 _ rfl, h4⟩)))))
  · refine .inr (.inr (.inr (.inr (.inr (.inr (.inl ?_))))))
    obtain ⟨u, hu, w, hw, l, hl, hm⟩ := h4
    have hlen : w < 7 := by
      rcases Nat.lt_or_ge w 7 with h | h
      · exact h
      · rw [List.getElem?_eq_none (by simpa [nearestWeekday] using h)] at hl
        cases hl
    unfold NearestWorkday
    have hu5 : IsWeekday u 5 ↔ (w : Int) = 5 := by
      rw [weekday_iff] at *; omega
    have hu6 : IsWeekday u 6 ↔ (w : Int) = 6 := by
      rw [weekday_iff] at *; omega
    match w, hlen with
    | 0, _ | 1, _ | 2, _ | 3, _ | 4, _ =>
      simp only [nearestWeekday] at hl
      cases hl
      have : d = u := by have := List.mem_singleton.1 hm; omega
      subst this
      exact .inl ⟨hu, by rw [hu5]; decide, by rw [hu6]; decide⟩
    | 5, _ =>
      simp only [nearestWeekday] at hl
      cases hl
      have : u = d + 1 := by have := List.mem_singleton.1 hm; omega
      subst this
      refine .inr (.inl ⟨hu, ?_⟩)
      rw [weekday_iff] at *
      have := weekday_add d 1
      have := weekday_range d
      omega
    | 6, _ =>
      simp only [nearestWeekday] at hl
      cases hl
      have : u = d - 1 := by have := List.mem_singleton.1 hm; omega
      subst this
      refine .inr (.inr ⟨hu, ?_⟩)
      rw [weekday_iff] at *
      have := weekday_add (d - 1) 1
      rw [show d - 1 + 1 = d by omega] at this
      omega
  · exact .inr (.inr (.inr (.inr (.inr (.inr (.inr (.inl h4)))))))
  · exact .inr (.inr (.inr (.inr (.inr (.inr (.inr (.inr (.inr (.inl h4)))))))))

theorem newYork_closes_early {d t : Int} (h : EarlyByBook newYorkEarly newYorkSingle d t) : t ≤ hm 16 0 := by
  rcases h with ⟨e, he, rfl, -⟩ | ⟨e, he, rfl, -⟩
  · simp only [newYorkEarly, List.mem_cons, List.not_mem_nil, or_false] at he
    rcases he with rfl | rfl <;> decide
  · simp only [newYorkSingle, List.mem_singleton] at he
    subst he
    decide

theorem newYork_thanksgiving {y d : Int} (hy : 1993 ≤ y) (h : (Yearly.nthPlus 4 3 11 1).On y d) :
    EarlyByBook newYorkEarly newYorkSingle d (hm 13 0) :=
  .inl ⟨_, .head _, rfl, y, since 1993 (.nthPlus 4 3 11 1), by simp, on_since hy h⟩

theorem newYork_christmas {y d : Int} (hy : 1993 ≤ y) (h : (Yearly.dateIf 12 24 [0, 1, 2, 3]).On y d) :
    EarlyByBook newYorkEarly newYorkSingle d (hm 13 0) :=
  .inl ⟨_, .head _, rfl, y, since 1993 (.dateIf 12 24 [0, 1, 2, 3]), by simp, on_since hy h⟩

theorem evening : (hm 17 1 - DAY) / DAY = -1 ∧ (hm 18 1 - DAY) / DAY = -1 ∧ (hm 20 1 - DAY) / DAY = -1 ∧
    hm 9 31 / DAY = 0 ∧ hm 8 31 / DAY = 0 ∧ hm 10 1 / DAY = 0 := by decide

theorem chicago_newYork {d k : Int} (h : Ahead (Clocks.northAmerica (hm (-6) 0)) d k) :
    Ahead (Clocks.northAmerica (hm (-5) 0)) d (k + hm 1 0) := ahead_shift (δ := hm 1 0) h

/-- Exchanges whose clock is that of New York and whose sessions are those of US futures at most. -/
theorem futures_of {x : Exchange} {z : Tz} {first o₁ c₁ : Int} {bad : List Int} {E₁ a₁ : Int → Int → Prop}
    (hk₁ : KeepsUtc x z first bad (Hours.daily o₁ c₁ E₁) a₁)
    (st₁ : Steady (x.config z)) (he₁ : ∀ d t, E₁ d t → t ≤ c₁)
    (hb₁ : build (x.config z) start stop = .ok b₁)
    (hb₂ : build (UsFuturesCalendar.exchange.config UsFuturesCalendar.zone) start stop = .ok b₂) (hmid : DAY ∣ start)
    (hf : first * DAY ≤ start) (h76 : dayOf 1976 1 2 * DAY ≤ start)
    (hbad : ∀ d ∈ bad, d * DAY < start ∨ stop < d * DAY)
    (hl : ∀ l ∈ b₁.cal.sessions, l ∈ b₂.cal.sessions)
    (hclock : ∀ d : Int, start ≤ d * DAY → ∃ i₁ i₂ k₁ k₂, a₁ (d + o₁ / DAY) i₁ ∧ a₁ d k₁ ∧
      Ahead (Clocks.northAmerica (hm (-5) 0)) (d - 1) i₂ ∧ Ahead (Clocks.northAmerica (hm (-5) 0)) d k₂ ∧
      hm 18 1 - DAY - i₂ ≤ o₁ - i₁ ∧ c₁ - k₁ ≤ hm 18 0 - k₂) : OpenWithin b₁.cal b₂.cal := by
  have h1 : dayOf 1976 1 2 = 2192 := by decide +kernel
  have hn : NP_NAT + 3 * DAY ≤ start := by rw [h1] at h76; simp only [DAY, NP_NAT] at *; omega
  refine within_of hk₁ st₁ c63_usFuturesCalendar (steady_default (name := "us_futures")
    (cls := .exchange UsFuturesCalendar.exchange UsFuturesCalendar.zone start2000)
    (by simp [defaultClasses])) hb₁ hb₂ hmid hf ?_ hn hbad (by simp) hl fun d _ h2 _ => ?_
  · have : dayOf 1901 12 15 ≤ 2192 := by decide +kernel
    rw [h1] at h76; simp only [DAY] at *; omega
  obtain ⟨i₁, i₂, k₁, k₂, g1, g2, g3, g4, g5, g6⟩ := hclock d h2
  exact ⟨i₁, i₂, k₁, k₂, g1, by rw [evening.2.1]; exact g3, g2, g4, g5, g6, he₁ d, fun _ h => h.elim⟩

/-! ## The tables -/

section
variable {m n : String} {clsM clsN : CalendarClass}

/-- C86: names of which the second is open whenever the first is, in every range from the given date on. -/
theorem c86_open_with (hM : (m, clsM) ∈ defaultClasses) (hN : (n, clsN) ∈ defaultClasses)
    (h₁ : clsM.constructFor start stop = .ok b₁) (h₂ : clsN.constructFor start stop = .ok b₂) (hmid : DAY ∣ start)
    {x : Date} {e : Int} (h : (m, n, x) ∈ openWith) (hx : DayNumber x e) (hs : e * DAY ≤ start) :
    OpenWithin b₁.cal b₂.cal := by
  have st := steady_default hM
  have k₁ := constructFor_build h₁
  have k₂ := constructFor_build h₂
  have hc := c85_calendars hM hN h₁ h₂ hmid
  simp only [openWith, List.mem_cons, List.not_mem_nil, or_false, Prod.mk.injEq] at h
  have l76 : dayOf 1901 12 15 ≤ dayOf 1976 1 2 := by decide +kernel
  have j76 : dayOf 1976 1 2 = jan1 1976 + 1 := by decide +kernel
  rcases h with ⟨rfl, rfl, rfl⟩ | ⟨rfl, rfl, rfl⟩ | ⟨rfl, rfl, rfl⟩ | ⟨rfl, rfl, rfl⟩ | ⟨rfl, rfl, rfl⟩
  · obtain rfl := class_unique hM (cls' := .exchange Xnys.exchange Xnys.zone startDefault) (by simp [defaultClasses])
    obtain rfl := class_unique hN (cls' := .exchange UsFuturesCalendar.exchange UsFuturesCalendar.zone start2000) (by simp [defaultClasses])
    obtain rfl := (dn (by decide) _ _).1 hx
    refine futures_of c63_xnys st (fun _ _ => newYork_closes_early) k₁ k₂ hmid (by simp only [DAY] at *; omega) hs ?_ ?_ ?_
    · have : ∀ d ∈ [dayOf 1945 12 24, dayOf 1956 12 24], d < dayOf 1976 1 2 := by decide +kernel
      exact fun d hd => .inl (by have := this d hd; simp only [DAY] at *; omega)
    · refine c85_subset k₁ k₂ hmid fun d _ _ hd => ?_
      rw [classTrades_iff hM] at hd
      rw [classTrades_iff hN]
      have hI : ("IEPA", CalendarClass.exchange Iepa.exchange Iepa.zone startDefault) ∈ defaultClasses := by simp [defaultClasses]
      have hC : ("CMES", CalendarClass.exchange Cmes.exchange Cmes.zone startDefault) ∈ defaultClasses := by simp [defaultClasses]
      exact c85_within_always hC hN (by simp [withinAlways]) d (c85_within_always hI hC (by simp [withinAlways]) d
        (c85_within_always hM hI (by simp [withinAlways]) d hd))
    · intro d hd
      have hd1 : jan1 1976 ≤ d - 1 := by rw [j76] at hs; simp only [DAY] at *; omega
      obtain ⟨k, g1, g2, g3⟩ := northAmerica_ahead (std := hm (-5) 0) (d := d) (by omega)
      obtain ⟨i, g4, g5, g6⟩ := northAmerica_ahead (std := hm (-5) 0) hd1
      exact ⟨k, i, k, k, by rw [evening.2.2.2.1, Int.add_zero]; exact g1, g1, g4, g1,
        by simp only [hm, DAY] at *; omega, by simp only [hm] at *; omega⟩
  · obtain rfl := class_unique hM (cls' := .exchange Iepa.exchange Iepa.zone startDefault) (by simp [defaultClasses])
    obtain rfl := class_unique hN (cls' := .exchange UsFuturesCalendar.exchange UsFuturesCalendar.zone start2000) (by simp [defaultClasses])
    obtain rfl := (dn (by decide) _ _).1 hx
    refine futures_of c63_iepa st (fun d t h => early_daily h rfl (by decide)) k₁ k₂ hmid
      (by simp only [DAY] at *; omega) hs (by simp) ?_ ?_
    · refine c85_subset k₁ k₂ hmid fun d _ _ hd => ?_
      rw [classTrades_iff hM] at hd
      rw [classTrades_iff hN]
      have hC : ("CMES", CalendarClass.exchange Cmes.exchange Cmes.zone startDefault) ∈ defaultClasses := by simp [defaultClasses]
      exact c85_within_always hC hN (by simp [withinAlways]) d (c85_within_always hM hC (by simp [withinAlways]) d hd)
    · intro d hd
      have hd1 : jan1 1976 ≤ d - 1 := by rw [j76] at hs; simp only [DAY] at *; omega
      obtain ⟨k, g1, g2, g3⟩ := northAmerica_ahead (std := hm (-5) 0) (d := d) (by omega)
      obtain ⟨i, g4, g5, g6⟩ := northAmerica_ahead (std := hm (-5) 0) hd1
      exact ⟨i, i, k, k, by rw [evening.2.2.1]; exact g4, g1, g4, g1,
        by simp only [hm, DAY] at *; omega, by simp only [hm] at *; omega⟩
  · obtain rfl := class_unique hM (cls' := .exchange Cmes.exchange Cmes.zone startDefault) (by simp [defaultClasses])
    obtain rfl := class_unique hN (cls' := .exchange UsFuturesCalendar.exchange UsFuturesCalendar.zone start2000) (by simp [defaultClasses])
    obtain rfl := (dn (by decide) _ _).1 hx
    refine futures_of c63_cmes st (fun d t h => early_daily h rfl (by decide)) k₁ k₂ hmid
      (by simp only [DAY] at *; omega) hs (by simp) (hc.2.2.1 (by simp [withinAlways])) ?_
    intro d hd
    have hd1 : jan1 1976 ≤ d - 1 := by rw [j76] at hs; simp only [DAY] at *; omega
    obtain ⟨k, g1, g2, g3⟩ := northAmerica_ahead (std := hm (-6) 0) (d := d) (by omega)
    obtain ⟨i, g4, g5, g6⟩ := northAmerica_ahead (std := hm (-6) 0) hd1
    exact ⟨i, i + hm 1 0, k, k + hm 1 0, by rw [evening.1]; exact g4, g1, chicago_newYork g4, chicago_newYork g1,
      by simp only [hm, DAY] at *; omega, by simp only [hm] at *; omega⟩
  · obtain rfl := class_unique hM (cls' := .exchange Xswx.exchange Xswx.zone startDefault) (by simp [defaultClasses])
    obtain rfl := class_unique hN (cls' := .exchange UsFuturesCalendar.exchange UsFuturesCalendar.zone start2000) (by simp [defaultClasses])
    obtain rfl := (dn (by decide) _ _).1 hx
    have h9 : dayOf 1996 1 2 = jan1 1996 + 1 ∧ dayOf 1976 1 2 ≤ dayOf 1996 1 2 ∧ dayOf 1700 1 2 ≤ dayOf 1996 1 2 := by
      decide +kernel
    refine futures_of c63_xswx st (fun _ _ h => h.elim) k₁ k₂ hmid (by simp only [DAY] at *; omega)
      (by simp only [DAY] at *; omega) (by simp) (hc.2.2.1 (by simp [withinAlways])) ?_
    intro d hd
    have hd1 : jan1 1996 ≤ d ∧ jan1 1976 ≤ d - 1 := by simp only [DAY] at *; omega
    obtain ⟨k, g1, g2, g3⟩ := europe_ahead (std := hm 1 0) hd1.1
    obtain ⟨k', g4, g5, g6⟩ := northAmerica_ahead (std := hm (-5) 0) (d := d) (by omega)
    obtain ⟨i, g7, g8, g9⟩ := northAmerica_ahead (std := hm (-5) 0) hd1.2
    exact ⟨k, i, k, k', by rw [nine, Int.add_zero]; exact g1, g1, g7, g4,
      by simp only [hm, DAY] at *; omega, by simp only [hm] at *; omega⟩
  · obtain rfl := class_unique hM (cls' := .exchange Xmad.exchange Xmad.zone startDefault) (by simp [defaultClasses])
    obtain rfl := class_unique hN (cls' := .exchange Xams.exchange Xams.zone startDefault) (by simp [defaultClasses])
    obtain rfl := (dn (by decide) _ _).1 hx
    have h9 : jan1 1996 ≤ dayOf 2011 1 1 ∧ dayOf 1901 12 15 ≤ dayOf 2011 1 1 ∧ dayOf 2011 1 1 = dayOf 2010 12 31 + 1 ∧
        yearOf (dayOf 2011 1 1) = 2011 := by decide +kernel
    have hA : b₂.cal.sessions = b₁.cal.sessions :=
      (c85_calendars hN hM h₂ h₁ hmid).2.1 ⟨2010, 12, 31⟩ (dayOf 2010 12 31) (by simp [sameSince])
        ((dn (by decide) _ _).2 rfl) (by simp only [DAY] at *; omega)
    refine europe_within c63_xmad st (by decide) (fun d t h => early_daily h rfl (by decide)) k₁ k₂ hmid
      (by simp only [DAY] at *; omega) (by simp only [DAY] at *; omega) (fun l hl => hA ▸ hl) fun d t _ h1 _ ht => ?_
    obtain ⟨rfl, hw, y, hy⟩ := euronext_early.1 ht
    have hyd : y = yearOf d := by
      rcases hy with hy | ⟨-, hy⟩
      · exact year_of_dayNumber hy
      · exact year_of_dayNumber hy
    have hge := yearOf_mono (d := dayOf 2011 1 1) (d' := d) (by simp only [DAY] at *; omega)
    rw [h9.2.2.2, ← hyd] at hge
    have hne : y ≠ 2011 := by
      rintro rfl
      have h5 : d = dayOf 2011 12 24 ∨ d = dayOf 2011 12 31 := hy.imp (dn (by decide) _ _).1 fun h => (dn (by decide) _ _).1 h.2
      obtain ⟨w, hw1, hw2⟩ := hw
      rw [weekday_iff] at hw2
      have h6 : weekday (dayOf 2011 12 24) = 5 ∧ weekday (dayOf 2011 12 31) = 5 := by decide +kernel
      have h7 : w = 5 := by rcases h5 with rfl | rfl <;> omega
      subst h7
      simp [weekdays] at hw1
    exact ⟨hm 14 0, madrid_early.2 ⟨rfl, hw, y, by omega, hy.imp id And.right⟩, by decide, by decide⟩

/-- C86: names of which the second is open whenever the first is, in every range from the given date to 2200. -/
theorem c86_open_with_to_2200 (hM : (m, clsM) ∈ defaultClasses) (hN : (n, clsN) ∈ defaultClasses)
    (h₁ : clsM.constructFor start stop = .ok b₁) (h₂ : clsN.constructFor start stop = .ok b₂) (hmid : DAY ∣ start)
    {x : Date} {e f : Int} (h : (m, n, x) ∈ openWithTo2200) (hx : DayNumber x e) (hs : e * DAY ≤ start)
    (hf : DayNumber ⟨2201, 1, 1⟩ f) (hstop : stop < f * DAY) : OpenWithin b₁.cal b₂.cal := by
  have st := steady_default hM
  have st' := steady_default hN
  have k₁ := constructFor_build h₁
  have k₂ := constructFor_build h₂
  have hc := c85_calendars hM hN h₁ h₂ hmid
  obtain rfl := (dn (by decide) _ _).1 hf
  have h2201 : dayOf 2201 1 1 = 84371 := by decide +kernel
  simp only [openWithTo2200, List.mem_cons, List.not_mem_nil, or_false, Prod.mk.injEq] at h
  have l76 : dayOf 1901 12 15 ≤ dayOf 1976 1 2 ∧ dayOf 1976 1 2 ≤ dayOf 1993 1 2 := by decide +kernel
  have j76 : dayOf 1976 1 2 = jan1 1976 + 1 ∧ yearOf (jan1 1976) = 1976 ∧ jan1 1976 = 2191 := by decide +kernel
  have j93 : yearOf (dayOf 1993 1 2) = 1993 := by decide +kernel
  have bad : ∀ d ∈ [dayOf 1945 12 24, dayOf 1956 12 24], d < dayOf 1976 1 2 := by decide +kernel
  have l96 : jan1 1996 ≤ dayOf 2001 6 5 ∧ jan1 1996 ≤ dayOf 2001 5 1 ∧ dayOf 1700 1 2 ≤ jan1 1996 ∧ 0 ≤ jan1 1996 := by
    decide +kernel
  have l01 : dayOf 2001 6 5 = dayOf 2001 6 4 + 1 ∧ dayOf 2001 5 1 = dayOf 2001 4 30 + 1 := by decide +kernel
  rcases h with ⟨rfl, rfl, rfl⟩ | ⟨rfl, rfl, rfl⟩ | ⟨rfl, rfl, rfl⟩ | ⟨rfl, rfl, rfl⟩ | ⟨rfl, rfl, rfl⟩ | ⟨rfl, rfl, rfl⟩ | ⟨rfl, rfl, rfl⟩ | ⟨rfl, rfl, rfl⟩ | ⟨rfl, rfl, rfl⟩ | ⟨rfl, rfl, rfl⟩
  · obtain rfl := class_unique hM (cls' := .exchange Xnys.exchange Xnys.zone startDefault) (by simp [defaultClasses])
    obtain rfl := class_unique hN (cls' := .exchange Iepa.exchange Iepa.zone startDefault) (by simp [defaultClasses])
    obtain rfl := (dn (by decide) _ _).1 hx
    refine within_of c63_xnys st c63_iepa st' k₁ k₂ hmid (by simp only [DAY] at *; omega) (by simp only [DAY] at *; omega)
      (by simp only [DAY, NP_NAT] at *; omega) (fun d hd => .inl (by have := bad d hd; simp only [DAY] at *; omega))
      (by simp) (hc.2.2.1 (by simp [withinAlways])) fun d hd h1 h2 => ?_
    · have hd1 : jan1 1976 ≤ d - 1 := by simp only [DAY] at *; omega
      have hy := yearOf_mono (d := jan1 1976) (d' := d) (by omega)
      have hclosed : ∀ y, ¬ NewYorkHoliday y d := fun y hy => closed_of c55_new_york (by omega)
        (by simp only [DAY] at *; omega) hy _ start stop b₁ k₁ hmid h1 h2 hd
      obtain ⟨k, g1, g2, g3⟩ := northAmerica_ahead (std := hm (-5) 0) (d := d) (by omega)
      obtain ⟨i, g4, g5, g6⟩ := northAmerica_ahead (std := hm (-5) 0) hd1
      refine ⟨k, i, k, k, by rw [evening.2.2.2.1, Int.add_zero]; exact g1, by rw [evening.2.2.1]; exact g4, g1, g1,
        by simp only [hm, DAY] at *; omega, by simp only [hm] at *; omega, fun _ => newYork_closes_early, ?_⟩
      rintro t (⟨l, hl, rfl, y, h5⟩ | ⟨_, h5, -⟩)
      · simp only [iceEarly, List.mem_singleton] at hl
        subst hl
        exact absurd (halfDay_holiday h5 (by omega)) (hclosed y)
      · cases h5
  · obtain rfl := class_unique hM (cls' := .exchange Xnys.exchange Xnys.zone startDefault) (by simp [defaultClasses])
    obtain rfl := class_unique hN (cls' := .exchange Cmes.exchange Cmes.zone startDefault) (by simp [defaultClasses])
    obtain rfl := (dn (by decide) _ _).1 hx
    refine within_of c63_xnys st c63_cmes st' k₁ k₂ hmid (by simp only [DAY] at *; omega) (by simp only [DAY] at *; omega)
      (by simp only [DAY, NP_NAT] at *; omega) (fun d hd => .inl (by have := bad d hd; simp only [DAY] at *; omega))
      (by simp) ?_ fun d hd h1 h2 => ?_
    · refine c85_subset k₁ k₂ hmid fun d _ _ hd => ?_
      rw [classTrades_iff hM] at hd
      rw [classTrades_iff hN]
      have hI : ("IEPA", CalendarClass.exchange Iepa.exchange Iepa.zone startDefault) ∈ defaultClasses := by simp [defaultClasses]
      exact c85_within_always hI hN (by simp [withinAlways]) d (c85_within_always hM hI (by simp [withinAlways]) d hd)
    · have hd1 : jan1 1976 ≤ d - 1 := by simp only [DAY] at *; omega
      have hy := yearOf_mono (d := jan1 1976) (d' := d) (by omega)
      have hclosed : ∀ y, ¬ NewYorkHoliday y d := fun y hy => closed_of c55_new_york (by omega)
        (by simp only [DAY] at *; omega) hy _ start stop b₁ k₁ hmid h1 h2 hd
      have h93 := yearOf_mono (d := dayOf 1993 1 2) (d' := d) (by simp only [DAY] at *; omega)
      obtain ⟨k, g1, g2, g3⟩ := northAmerica_ahead (std := hm (-6) 0) (d := d) (by omega)
      obtain ⟨i, g4, g5, g6⟩ := northAmerica_ahead (std := hm (-6) 0) hd1
      refine ⟨k + hm 1 0, i, k + hm 1 0, k, by rw [evening.2.2.2.1, Int.add_zero]; exact chicago_newYork g1,
        by rw [evening.1]; exact g4, chicago_newYork g1, g1,
        by simp only [hm, DAY] at *; omega, by simp only [hm] at *; omega, fun _ => newYork_closes_early, ?_⟩
      rintro t (⟨l, hl, rfl, y, ln, hln, h5⟩ | ⟨_, h5, -⟩)
      · simp only [cmeEarly, List.mem_singleton] at hl
        subst hl
        rcases List.mem_append.1 hln with hln | hln
        · exact absurd (halfDay_holiday ⟨ln, hln, h5⟩ (by omega)) (hclosed y)
        · simp only [List.mem_cons, List.not_mem_nil, or_false] at hln
          refine .inr ⟨hm 13 0, ?_, by simp only [hm] at *; omega, by simp only [hm] at *; omega⟩
          rcases hln with rfl | rfl
          · exact newYork_thanksgiving (h5.1 _ rfl) h5.2.2.2
          · exact newYork_christmas (by have := year_of_dayNumber h5.2.2.2.1; omega) h5.2.2.2
      · cases h5
  · obtain rfl := class_unique hM (cls' := .exchange Xnys.exchange Xnys.zone startDefault) (by simp [defaultClasses])
    obtain rfl := class_unique hN (cls' := .exchange Xcbf.exchange Xcbf.zone startDefault) (by simp [defaultClasses])
    obtain rfl := (dn (by decide) _ _).1 hx
    have h70 : dayOf 1970 2 16 < dayOf 1976 1 2 := by decide +kernel
    refine within_of c63_xnys st c63_xcbf st' k₁ k₂ hmid (by simp only [DAY] at *; omega) (by simp only [DAY] at *; omega)
      (by simp only [DAY, NP_NAT] at *; omega) (fun d hd => .inl (by have := bad d hd; simp only [DAY] at *; omega))
      (by simp) (hc.2.2.2 ⟨1970, 2, 16⟩ (dayOf 1970 2 16) (by simp [withinSince]) ((dn (by decide) _ _).2 rfl)
        (by simp only [DAY] at *; omega)) fun d hd h1 h2 => ?_
    have hd1 : jan1 1976 ≤ d := by simp only [DAY] at *; omega
    obtain ⟨k, g1, g2, g3⟩ := northAmerica_ahead (std := hm (-6) 0) (d := d) hd1
    refine ⟨k + hm 1 0, k, k + hm 1 0, k, by rw [evening.2.2.2.1, Int.add_zero]; exact chicago_newYork g1,
      by rw [evening.2.2.2.2.1, Int.add_zero]; exact g1, chicago_newYork g1, g1,
      by simp only [hm, DAY] at *; omega, by simp only [hm] at *; omega, fun _ => newYork_closes_early, ?_⟩
    rintro t (⟨l, hl, rfl, y, ln, hln, h5⟩ | ⟨_, h5, -⟩)
    · simp only [cboeEarly, List.mem_singleton] at hl
      subst hl
      simp only [List.mem_singleton] at hln
      subst hln
      exact .inr ⟨hm 13 0, newYork_thanksgiving (h5.1 _ rfl) h5.2.2.2, by simp only [hm] at *; omega,
        by simp only [hm] at *; omega⟩
    · cases h5
  · obtain rfl := class_unique hM (cls' := .exchange Xetr.exchange Xetr.zone startDefault) (by simp [defaultClasses])
    obtain rfl := class_unique hN (cls' := .exchange Xams.exchange Xams.zone startDefault) (by simp [defaultClasses])
    obtain rfl := (dn (by decide) _ _).1 hx
    exact europe_within c63_xetr st (by decide) (fun d t h => early_daily h rfl (by decide)) k₁ k₂ hmid
      (by simp only [DAY] at *; omega) (by simp only [DAY] at *; omega) (hc.2.2.2 ⟨2001, 6, 4⟩ (dayOf 2001 6 4) (by simp [withinSince]) ((dn (by decide) _ _).2 rfl) (by simp only [DAY] at *; omega))
      fun d t hd h1 h2 ht => absurd ht (eve_closed c59_xetr k₁ hmid (by simp [frankfurt]) (by simp [frankfurt])
        (by simp only [DAY] at *; omega) hstop hd h1 h2)
  · obtain rfl := class_unique hM (cls' := .exchange Xfra.exchange Xfra.zone startDefault) (by simp [defaultClasses])
    obtain rfl := class_unique hN (cls' := .exchange Xams.exchange Xams.zone startDefault) (by simp [defaultClasses])
    obtain rfl := (dn (by decide) _ _).1 hx
    have hE : ("XETR", CalendarClass.exchange Xetr.exchange Xetr.zone startDefault) ∈ defaultClasses := by simp [defaultClasses]
    have hsub : ∀ l ∈ b₁.cal.sessions, l ∈ b₂.cal.sessions := by
      refine c85_subset k₁ k₂ hmid fun d h3 _ hd => ?_
      rw [classTrades_iff hM] at hd
      rw [classTrades_iff hN]
      exact (c85_within_since hE hN (x := ⟨2001, 6, 4⟩) (by simp [withinSince]) ((dn (by decide) _ _).2 rfl)).2 d
        (by simp only [DAY] at *; omega) ((c85_same_always hE hM (by simp [sameAlways]) d).2 hd)
    exact europe_within c63_xfra st (by decide) (fun d t h => early_daily h rfl (by decide)) k₁ k₂ hmid
      (by simp only [DAY] at *; omega) (by simp only [DAY] at *; omega) hsub
      fun d t hd h1 h2 ht => absurd ht (eve_closed c59_xfra k₁ hmid (by simp [frankfurt]) (by simp [frankfurt])
        (by simp only [DAY] at *; omega) hstop hd h1 h2)
  · obtain rfl := class_unique hM (cls' := .exchange Xhel.exchange Xhel.zone startDefault) (by simp [defaultClasses])
    obtain rfl := class_unique hN (cls' := .exchange Xams.exchange Xams.zone startDefault) (by simp [defaultClasses])
    obtain rfl := (dn (by decide) _ _).1 hx
    refine within_of c63_xhel st c63_xams st' k₁ k₂ hmid (by simp only [DAY] at *; omega) (by simp only [DAY] at *; omega)
      (by simp only [DAY, NP_NAT] at *; omega) (by simp) (by simp)
      (hc.2.2.2 ⟨2001, 6, 4⟩ (dayOf 2001 6 4) (by simp [withinSince]) ((dn (by decide) _ _).2 rfl)
        (by simp only [DAY] at *; omega)) fun d hd h1 h2 => ?_
    obtain ⟨k, g1, g2, g3⟩ := europe_ahead (std := hm 1 0) (d := d) (f := 1996) (by simp only [DAY] at *; omega)
    have g4 : Ahead (Clocks.europe (hm 2 0)) d (k + hm 1 0) := ahead_shift (δ := hm 1 0) g1
    exact ⟨k + hm 1 0, k, k + hm 1 0, k, by rw [evening.2.2.2.2.2, Int.add_zero]; exact g4,
      by rw [nine, Int.add_zero]; exact g1, g4, g1, by simp only [hm] at *; omega, by simp only [hm] at *; omega,
      fun _ h => h.elim, fun t ht => absurd ht (eve_closed c59_xhel k₁ hmid (by simp [helsinki]) (by simp [helsinki])
        (by simp only [DAY] at *; omega) hstop hd h1 h2)⟩
  · obtain rfl := class_unique hM (cls' := .exchange Xmil.exchange Xmil.zone startDefault) (by simp [defaultClasses])
    obtain rfl := class_unique hN (cls' := .exchange Xams.exchange Xams.zone startDefault) (by simp [defaultClasses])
    obtain rfl := (dn (by decide) _ _).1 hx
    exact europe_within c63_xmil st (by decide) (fun _ _ h => h.elim) k₁ k₂ hmid
      (by simp only [DAY] at *; omega) (by simp only [DAY] at *; omega) (hc.2.2.2 ⟨2001, 6, 4⟩ (dayOf 2001 6 4) (by simp [withinSince]) ((dn (by decide) _ _).2 rfl) (by simp only [DAY] at *; omega))
      fun d t hd h1 h2 ht => absurd ht (eve_closed c59_xmil k₁ hmid (by simp [milan]) (by simp [milan])
        (by simp only [DAY] at *; omega) hstop hd h1 h2)
  · obtain rfl := class_unique hM (cls' := .exchange Xosl.exchange Xosl.zone startDefault) (by simp [defaultClasses])
    obtain rfl := class_unique hN (cls' := .exchange Xams.exchange Xams.zone startDefault) (by simp [defaultClasses])
    obtain rfl := (dn (by decide) _ _).1 hx
    exact europe_within c63_xosl st (by decide) (fun d t h => early_daily h rfl (by decide)) k₁ k₂ hmid
      (by simp only [DAY] at *; omega) (by simp only [DAY] at *; omega) (hc.2.2.2 ⟨2001, 4, 30⟩ (dayOf 2001 4 30) (by simp [withinSince]) ((dn (by decide) _ _).2 rfl) (by simp only [DAY] at *; omega))
      fun d t hd h1 h2 ht => absurd ht (eve_closed c59_xosl k₁ hmid (by simp [oslo]) (by simp [oslo])
        (by simp only [DAY] at *; omega) hstop hd h1 h2)
  · obtain rfl := class_unique hM (cls' := .exchange Xsto.exchange Xsto.zone startDefault) (by simp [defaultClasses])
    obtain rfl := class_unique hN (cls' := .exchange Xams.exchange Xams.zone startDefault) (by simp [defaultClasses])
    obtain rfl := (dn (by decide) _ _).1 hx
    exact europe_within c63_xsto st (by decide) (fun d t h => early_daily h rfl (by decide)) k₁ k₂ hmid
      (by simp only [DAY] at *; omega) (by simp only [DAY] at *; omega) (hc.2.2.2 ⟨2001, 4, 30⟩ (dayOf 2001 4 30) (by simp [withinSince]) ((dn (by decide) _ _).2 rfl) (by simp only [DAY] at *; omega))
      fun d t hd h1 h2 ht => absurd ht (eve_closed c59_xsto k₁ hmid (by simp [stockholm]) (by simp [stockholm])
        (by simp only [DAY] at *; omega) hstop hd h1 h2)
  · obtain rfl := class_unique hM (cls' := .exchange Xswx.exchange Xswx.zone startDefault) (by simp [defaultClasses])
    obtain rfl := class_unique hN (cls' := .exchange Xams.exchange Xams.zone startDefault) (by simp [defaultClasses])
    obtain rfl := (dn (by decide) _ _).1 hx
    exact europe_within c63_xswx st (by decide) (fun _ _ h => h.elim) k₁ k₂ hmid
      (by simp only [DAY] at *; omega) (by simp only [DAY] at *; omega) (hc.2.2.2 ⟨2001, 4, 30⟩ (dayOf 2001 4 30) (by simp [withinSince]) ((dn (by decide) _ _).2 rfl) (by simp only [DAY] at *; omega))
      fun d t hd h1 h2 ht => absurd ht (eve_closed c59_xswx k₁ hmid (by simp [zurich]) (by simp [zurich])
        (by simp only [DAY] at *; omega) hstop hd h1 h2)

end

/-! ## Euronext -/

/-- What the calendars of Euronext have in common from Christmas 2002 on. -/
structure Alike (start stop : Int) (b : Built) : Prop where
  rows : ∃ ss, b.cal = Cal.ofSessions ss ∧
    ∀ s ∈ ss, ∃ d, start ≤ d * DAY ∧ KeepsUtcDay (Hours.daily (hm 9 1) (hm 17 30) (EarlyByBook euronextEarly []))
      (Ahead (Clocks.europe (hm 1 0))) start stop d s
  early : ∀ l, l ∈ b.earlyCloses ↔ ∃ d, l = d * DAY ∧ start ≤ l ∧ l ≤ stop ∧ ∃ t k, EarlyByBook euronextEarly [] d t ∧
    Ahead (Clocks.europe (hm 1 0)) d k ∧ start ≤ d * DAY + t - k ∧ d * DAY + t - k ≤ stop

theorem label_ge {cfg : Config} (hb : build cfg start stop = .ok b₁) (hmid : DAY ∣ start) {ss : List Session}
    (hss : b₁.cal = Cal.ofSessions ss) {s : Session} (hs : s ∈ ss) : start ≤ s.label := by
  obtain ⟨sch, e, c, -⟩ := build_parts hb
  obtain ⟨d', -, h2, -⟩ := ((schedule_labels e hmid).2 s.label).1
    (by rw [← c, hss]; exact List.mem_map_of_mem (f := (·.label)) hs)
  exact h2

theorem early_utc {z : Tz} {ps : List ClockYears} {T : Timetable} {d k : Int} (hz : ClockObeys z ps)
    (hT : ∀ t, T.early d t → hm 8 0 ≤ t ∧ t ≤ hm 21 0) (hk : Ahead ps d k) :
    (∃ u, T.EarlyAt z start stop d u) ↔ ∃ t, T.early d t ∧ start ≤ d * DAY + t - k ∧ d * DAY + t - k ≤ stop := by
  constructor
  · rintro ⟨u, t, ht, hu, h1, h2⟩
    have := hT t ht
    have := hu.2 _ (hz d t k this.1 this.2 hk).1
    exact ⟨t, ht, by omega, by omega⟩
  · rintro ⟨t, ht, h1, h2⟩
    have := hT t ht
    exact ⟨_, t, ht, hz d t k this.1 this.2 hk, h1, h2⟩

theorem alike_of {x : Exchange} {z : Tz} {first : Int}
    (hh : KeepsHours x z first [] (Hours.daily (hm 9 1) (hm 17 30) (EarlyByBook euronextEarly [])))
    (hk : KeepsUtc x z first [] (Hours.daily (hm 9 1) (hm 17 30) (EarlyByBook euronextEarly []))
      (Ahead (Clocks.europe (hm 1 0)))) (hz : ClockObeys z (Clocks.europe (hm 1 0)))
    (hb : build (x.config z) start stop = .ok b₁) (hmid : DAY ∣ start) (hf : first * DAY ≤ start)
    (h02 : dayOf 2002 12 24 * DAY < start) : Alike start stop b₁ := by
  constructor
  · obtain ⟨ss, h1, h2⟩ := hk start stop b₁ hf hmid (by simp) hb
    refine ⟨ss, h1, fun s hs => ?_⟩
    obtain ⟨d, hd⟩ := h2 s hs
    exact ⟨d, hd.label ▸ label_ge hb hmid h1 hs, hd⟩
  · intro l
    rw [(hh start stop b₁ hf hmid (by simp) hb).2 l]
    refine exists_congr fun d => ?_
    have h96 : jan1 1996 < dayOf 2002 12 24 := by decide +kernel
    have hT : ∀ t, EarlyByBook euronextEarly [] d t → hm 8 0 ≤ t ∧ t ≤ hm 21 0 := by
      intro t ht
      rw [(euronext_early.1 ht).1]
      decide
    constructor
    · rintro ⟨u, rfl, h1, h2, h3⟩
      obtain ⟨k, g1, -⟩ := europe_ahead (std := hm 1 0) (d := d) (f := 1996) (by simp only [DAY] at *; omega)
      obtain ⟨t, h4, h5, h6⟩ := (early_utc hz hT g1).1 ⟨u, h3⟩
      exact ⟨rfl, h1, h2, t, k, h4, g1, h5, h6⟩
    · rintro ⟨rfl, h1, h2, t, k, h4, g1, h5, h6⟩
      obtain ⟨u, hu⟩ := (early_utc (T := Hours.daily (hm 9 1) (hm 17 30) (EarlyByBook euronextEarly [])) hz hT g1).2
        ⟨t, h4, h5, h6⟩
      exact ⟨u, rfl, h1, h2, hu⟩

theorem lisbon_ahead {d k : Int} (h : Ahead (Clocks.europe (hm 1 0)) d k) (hd : 1997 ≤ yearOf d) :
    Ahead (Clocks.europe 0 1997) d (k - hm 1 0) := by
  have := ahead_shift (δ := - hm 1 0) h
  obtain ⟨p, hp, y, m, n, h1, h2, h3, h4⟩ := this
  have hy := year_of_dayNumber h1
  have hp : p = shiftYears (-hm 1 0) { first := 1996, last := some 2037, std := hm 1 0, rule := some Clocks.lastSundays } ∨
      p = shiftYears (-hm 1 0) { first := 2038, std := hm 1 0 } := by
    simpa [Clocks.europe] using hp
  rcases hp with rfl | rfl
  · exact ⟨{ first := 1997, last := some 2037, std := 0, rule := some Clocks.lastSundays }, by simp [Clocks.europe], y, m, n,
      h1, hy ▸ hd, h3, h4⟩
  · exact ⟨{ first := 2038, std := 0 }, by simp [Clocks.europe], y, m, n, h1, h2, h3, h4⟩

theorem alike_lisbon {x : Exchange} {z : Tz} {first : Int}
    (hh : KeepsHours x z first [] (Hours.daily (hm 8 1) (hm 16 30) (EarlyByBook lisbonEarly [])))
    (hk : KeepsUtc x z first [] (Hours.daily (hm 8 1) (hm 16 30) (EarlyByBook lisbonEarly []))
      (Ahead (Clocks.europe 0 1997))) (hz : ClockObeys z (Clocks.europe 0 1997))
    (hb : build (x.config z) start stop = .ok b₁) (hmid : DAY ∣ start) (hf : first * DAY ≤ start)
    (h02 : dayOf 2002 12 24 * DAY < start) : Alike start stop b₁ := by
  have hy : yearOf (dayOf 2002 12 24) = 2002 ∧ jan1 1996 < dayOf 2002 12 24 := by decide +kernel
  have hd : ∀ d : Int, start ≤ d * DAY → dayOf 2002 12 24 < d ∧ 1997 ≤ yearOf d := by
    intro d h
    have h1 : dayOf 2002 12 24 < d := by simp only [DAY] at *; omega
    have := yearOf_mono (Int.le_of_lt h1)
    exact ⟨h1, by omega⟩
  have early_to : ∀ d t : Int, start ≤ d * DAY → (EarlyByBook euronextEarly [] d t ↔
      EarlyByBook lisbonEarly [] d (t - hm 1 0)) := by
    intro d t h
    have h1 := lisbon_same (hd d h).1
    constructor
    · intro h2
      obtain ⟨t', h3⟩ := h1.2 ⟨t, h2⟩
      rw [(euronext_early.1 h2).1]
      rw [(lisbon_early.1 h3).1] at h3
      exact h3
    · intro h2
      obtain ⟨t', h3⟩ := h1.1 ⟨_, h2⟩
      have h4 := (lisbon_early.1 h2).1
      have h5 := (euronext_early.1 h3).1
      have : t = t' := by simp only [hm] at *; omega
      exact this ▸ h3
  constructor
  · obtain ⟨ss, h1, h2⟩ := hk start stop b₁ hf hmid (by simp) hb
    refine ⟨ss, h1, fun s hs => ?_⟩
    obtain ⟨d, g⟩ := h2 s hs
    have hge : start ≤ d * DAY := g.label ▸ label_ge hb hmid h1 hs
    have h97 := (hd d hge).2
    have h8 : hm 8 1 / DAY = 0 := by decide
    refine ⟨d, hge, g.label, ⟨hm 9 1, rfl, fun k hk => ?_⟩, fun t k ht hk h3 h4 => ?_, fun k hk hn => ?_, g.noBreak⟩
    · rw [nine, Int.add_zero] at hk
      obtain ⟨t, rfl, ho⟩ := g.opens
      rw [ho _ (by rw [h8, Int.add_zero]; exact lisbon_ahead hk h97)]
      simp only [hm]
      omega
    · have := g.early (t - hm 1 0) (k - hm 1 0) ((early_to d t hge).1 ht) (lisbon_ahead hk h97) (by omega) (by omega)
      rw [this.1]
      exact ⟨by omega, this.2⟩
    · obtain ⟨⟨t, rfl, hc⟩, -⟩ := g.closes (k - hm 1 0) (lisbon_ahead hk h97) (fun t ht hr => by
        have h5 : EarlyByBook euronextEarly [] d (t + hm 1 0) := (early_to d _ hge).2 (by
          rw [show t + hm 1 0 - hm 1 0 = t by omega]; exact ht)
        exact hn _ h5 ⟨by omega, by omega⟩)
      refine ⟨⟨hm 17 30, rfl, ?_⟩, fun p hp => by cases hp⟩
      rw [hc]
      simp only [hm]
      omega
  · intro l
    rw [(hh start stop b₁ hf hmid (by simp) hb).2 l]
    refine exists_congr fun d => ?_
    have hT : ∀ t, EarlyByBook lisbonEarly [] d t → hm 8 0 ≤ t ∧ t ≤ hm 21 0 := by
      intro t ht
      rw [(lisbon_early.1 ht).1]
      decide
    constructor
    · rintro ⟨u, rfl, h1, h2, h3⟩
      obtain ⟨k, g1, -⟩ := europe_ahead (std := hm 1 0) (d := d) (f := 1996) (by simp only [DAY] at *; omega)
      obtain ⟨t, h4, h5, h6⟩ := (early_utc hz hT (lisbon_ahead g1 (hd d h1).2)).1 ⟨u, h3⟩
      refine ⟨rfl, h1, h2, t + hm 1 0, k, (early_to d _ h1).2 ?_, g1, by omega, by omega⟩
      rw [show t + hm 1 0 - hm 1 0 = t by omega]
      exact h4
    · rintro ⟨rfl, h1, h2, t, k, h4, g1, h5, h6⟩
      obtain ⟨u, hu⟩ := (early_utc (start := start) (stop := stop) (T := Hours.daily (hm 8 1) (hm 16 30) (EarlyByBook lisbonEarly [])) hz hT
        (lisbon_ahead g1 (hd d h1).2)).2 ⟨t - hm 1 0, (early_to d t h1).1 h4, by omega, by omega⟩
      exact ⟨u, rfl, h1, h2, hu⟩

theorem alike_same (h₁ : Alike start stop b₁) (h₂ : Alike start stop b₂) (h02 : dayOf 2002 12 24 * DAY < start)
    (hl : b₁.cal.sessions = b₂.cal.sessions) :
    b₁.cal = b₂.cal ∧ ∀ l, l ∈ b₁.earlyCloses ↔ l ∈ b₂.earlyCloses := by
  refine ⟨?_, fun l => (h₁.early l).trans (h₂.early l).symm⟩
  obtain ⟨ss₁, e₁, f₁⟩ := h₁.rows
  obtain ⟨ss₂, e₂, f₂⟩ := h₂.rows
  rw [e₁, e₂] at hl ⊢
  congr 1
  refine rows_same _ _ hl fun s hs s' hs' hlab => ?_
  obtain ⟨d, hd, g⟩ := f₁ s hs
  obtain ⟨d', -, g'⟩ := f₂ s' hs'
  have : d' = d := by
    have h1 := g.label
    have h2 := g'.label
    simp only [DAY] at h1 h2
    omega
  subst this
  have h96 : jan1 1996 < dayOf 2002 12 24 := by decide +kernel
  obtain ⟨k, g1, g2, g3⟩ := europe_ahead (std := hm 1 0) (d := d') (f := 1996) (by simp only [DAY] at *; omega)
  have g1' : Ahead (Clocks.europe (hm 1 0)) (d' + hm 9 1 / DAY) k := by rw [nine, Int.add_zero]; exact g1
  have he : ∀ t, EarlyByBook euronextEarly [] d' t → t ≤ hm 17 30 := fun t h => early_daily h rfl (by decide)
  have he' : ∀ t, EarlyByBook euronextEarly [] d' t → hm 17 30 - k ≤ t - k ∨
      ∃ t', EarlyByBook euronextEarly [] d' t' ∧ t' - k ≤ t - k ∧ 0 ≤ t' - k := fun t h => .inr ⟨t, h, Int.le_refl _, by
    rw [(euronext_early.1 h).1]; simp only [hm] at *; omega⟩
  have a := day_within g g' hd g1' g1' g1 g1 (by omega) (by omega) he he'
  have b := day_within g' g hd g1' g1' g1 g1 (by omega) (by omega) he he'
  have n := g.noBreak rfl
  have n' := g'.noBreak rfl
  obtain ⟨l₁, o₁, k₁, c₁⟩ := s
  obtain ⟨l₂, o₂, k₂, c₂⟩ := s'
  simp only at hlab a b n n'
  subst n n' hlab
  congr 1 <;> omega

/-- C86: the calendars of Euronext are one calendar for every range from Christmas 2002 on: constructed for the same
range, the calendars of any two of its markets have the same sessions with the same opens and closes, so the same
answers to every query, and the same early closes. -/
theorem c86_euronext {m n : String} {clsM clsN : CalendarClass} (hM : (m, clsM) ∈ defaultClasses)
    (hN : (n, clsN) ∈ defaultClasses) (hm : m ∈ euronext) (hn : n ∈ euronext)
    (h₁ : clsM.constructFor start stop = .ok b₁) (h₂ : clsN.constructFor start stop = .ok b₂) (hmid : DAY ∣ start)
    {e : Int} (he : DayNumber ⟨2002, 12, 24⟩ e) (hs : e * DAY < start) :
    b₁.cal = b₂.cal ∧ ∀ l, l ∈ b₁.earlyCloses ↔ l ∈ b₂.earlyCloses := by
  obtain rfl := (dn (by decide) _ _).1 he
  have hlow : dayOf 1700 1 2 ≤ dayOf 2002 12 24 ∧ dayOf 1918 11 13 ≤ dayOf 2002 12 24 ∧
      dayOf 2001 4 30 ≤ dayOf 2002 12 24 := by decide +kernel
  have key : ∀ {m : String} {cls : CalendarClass} {b : Built}, (m, cls) ∈ defaultClasses → m ∈ euronext →
      cls.constructFor start stop = .ok b → Alike start stop b ∧
        ∀ d, start ≤ d * DAY → (TradingDay (classConfig cls) d ↔ TradesOn Xams.exchange d) := by
    intro m cls b hM hm h
    have hk := constructFor_build h
    have hA : ("XAMS", CalendarClass.exchange Xams.exchange Xams.zone startDefault) ∈ defaultClasses := by
      simp [defaultClasses]
    simp only [euronext, List.mem_cons, List.not_mem_nil, or_false] at hm
    rcases hm with rfl | rfl | rfl | rfl
    · obtain rfl := class_unique hM hA
      exact ⟨alike_of c61_xams c63_xams c63_clock_europeAmsterdam hk hmid (by simp only [DAY] at *; omega) hs,
        fun d _ => classTrades_iff hA d⟩
    · obtain rfl := class_unique hM (cls' := .exchange Xbru.exchange Xbru.zone startDefault) (by simp [defaultClasses])
      exact ⟨alike_of c61_xbru c63_xbru c63_clock_europeBrussels hk hmid (by simp only [DAY] at *; omega) hs,
        fun d hd => (classTrades_iff hM d).trans ((c85_same_since hA hM (x := ⟨2001, 4, 30⟩) (by simp [sameSince])
          ((dn (by decide) _ _).2 rfl)).2 d (by simp only [DAY] at *; omega)).symm⟩
    · obtain rfl := class_unique hM (cls' := .exchange Xlis.exchange Xlis.zone startDefault) (by simp [defaultClasses])
      exact ⟨alike_lisbon c61_xlis c63_xlis c63_clock_europeLisbon hk hmid (by simp only [DAY] at *; omega) hs,
        fun d hd => (classTrades_iff hM d).trans ((c85_same_since hA hM (x := ⟨2002, 12, 24⟩) (by simp [sameSince])
          ((dn (by decide) _ _).2 rfl)).2 d (by simp only [DAY] at *; omega)).symm⟩
    · obtain rfl := class_unique hM (cls' := .exchange Xpar.exchange Xpar.zone startDefault) (by simp [defaultClasses])
      exact ⟨alike_of c61_xpar c63_xpar c63_clock_europeParis hk hmid (by simp only [DAY] at *; omega) hs,
        fun d hd => (classTrades_iff hM d).trans ((c85_same_since hA hM (x := ⟨2001, 4, 30⟩) (by simp [sameSince])
          ((dn (by decide) _ _).2 rfl)).2 d (by simp only [DAY] at *; omega)).symm⟩
  obtain ⟨a₁, t₁⟩ := key hM hm h₁
  obtain ⟨a₂, t₂⟩ := key hN hn h₂
  exact alike_same a₁ a₂ hs (c85_sessions (constructFor_build h₁) (constructFor_build h₂) hmid fun d hd _ =>
    (t₁ d hd).trans (t₂ d hd).symm)

/-- Amsterdam and Lisbon in 2019 are one calendar. -/
example : ∃ b₁ b₂, (CalendarClass.exchange Xams.exchange Xams.zone startDefault).constructFor (dayOf 2019 1 1 * DAY)
      (dayOf 2019 12 31 * DAY) = .ok b₁ ∧
    (CalendarClass.exchange Xlis.exchange Xlis.zone startDefault).constructFor (dayOf 2019 1 1 * DAY)
      (dayOf 2019 12 31 * DAY) = .ok b₂ ∧ b₁.cal = b₂.cal := by
  obtain ⟨b₁, h₁, -⟩ := (c54_xams_zone (dayOf 2019 1 1 * DAY) (dayOf 2019 12 31 * DAY) (by decide +kernel)
    (Int.dvd_mul_left _ _)).succeeds (by decide +kernel) ⟨dayOf 2019 10 16, by decide +kernel, by decide +kernel,
      trades_of xams_check (by decide +kernel)⟩
  obtain ⟨b₂, h₂, -⟩ := (c54_xlis_zone (dayOf 2019 1 1 * DAY) (dayOf 2019 12 31 * DAY) (by decide +kernel)
    (Int.dvd_mul_left _ _)).succeeds (by decide +kernel) ⟨dayOf 2019 10 16, by decide +kernel, by decide +kernel,
      trades_of xlis_check (by decide +kernel)⟩
  refine ⟨b₁, b₂, h₁, h₂, ?_⟩
  exact (c86_euronext (m := "XAMS") (n := "XLIS") (clsM := .exchange Xams.exchange Xams.zone startDefault)
    (clsN := .exchange Xlis.exchange Xlis.zone startDefault) (by simp [defaultClasses]) (by simp [defaultClasses])
    (by simp [euronext]) (by simp [euronext]) h₁ h₂ (Int.dvd_mul_left _ _)
    ((dn (by decide) _ _).2 rfl) (by decide +kernel)).1

/-- New York in 2019: at the opening of 2019-10-16 it is open, and so are the other US markets. -/
example : ∃ b₁ b₂, (CalendarClass.exchange Xnys.exchange Xnys.zone startDefault).constructFor (dayOf 2019 1 1 * DAY)
      (dayOf 2019 12 31 * DAY) = .ok b₁ ∧
    (CalendarClass.exchange Cmes.exchange Cmes.zone startDefault).constructFor (dayOf 2019 1 1 * DAY)
      (dayOf 2019 12 31 * DAY) = .ok b₂ ∧ OpenWithin b₁.cal b₂.cal := by
  obtain ⟨b₁, h₁, -⟩ := (c54_xnys_zone (dayOf 2019 1 1 * DAY) (dayOf 2019 12 31 * DAY) (by decide +kernel)
    (Int.dvd_mul_left _ _)).succeeds (by decide +kernel) ⟨dayOf 2019 10 16, by decide +kernel, by decide +kernel,
      trades_of xnys_check (by decide +kernel)⟩
  obtain ⟨b₂, h₂, -⟩ := (c54_cmes_zone (dayOf 2019 1 1 * DAY) (dayOf 2019 12 31 * DAY) (by decide +kernel)
    (Int.dvd_mul_left _ _)).succeeds (by decide +kernel) ⟨dayOf 2019 10 16, by decide +kernel, by decide +kernel,
      trades_of cmes_check (by decide +kernel)⟩
  refine ⟨b₁, b₂, h₁, h₂, ?_⟩
  exact c86_open_with_to_2200 (m := "XNYS") (n := "CMES") (clsM := .exchange Xnys.exchange Xnys.zone startDefault)
    (clsN := .exchange Cmes.exchange Cmes.zone startDefault) (by simp [defaultClasses]) (by simp [defaultClasses])
    h₁ h₂ (Int.dvd_mul_left _ _) (x := ⟨1993, 1, 2⟩) (by simp [openWithTo2200])
    ((dn (by decide) _ _).2 rfl) (by decide +kernel) ((dn (by decide) _ _).2 rfl) (by decide +kernel)

end TC.Props
