import Verif.Props.EarlyYear

/-!
# Early closes at the end of the range (C99)

`_special_dates` (`trading_calendar.py` line 1113) keeps the special closes whose time in UTC lies between the first and
the last day of the range, where the last day stands for its midnight.  So an early close on the last day is lost, and
the session has its full length.

Written by `tools/gen_early.py` from `tools/LastDay.in`.
-/

namespace TC.Props
open Spec

/-- All early closes of a calendar are later in the day than the clocks of its zone are ever ahead of UTC. -/
def closesLate (cfg : Config) : Bool :=
  (cfg.specialCloses.map (·.1) ++ cfg.specialClosesAdhoc.map (·.1)).all fun t =>
    (cfg.tz.base :: cfg.tz.trans.map (·.2)).all fun o => decide (o < t)

theorem last_lost {cfg : Config} {start d : Int} {b : Built} (hst : Steady cfg) (hb : build cfg start (d * DAY) = .ok b)
    (hmid : DAY ∣ start) (hlow : NP_NAT + 3 * DAY ≤ start) (h : closesLate cfg = true) : d * DAY ∉ b.earlyCloses := by
  intro hl
  obtain ⟨-, u, t, ht, ⟨⟨o, ho, e⟩, -⟩, -, hu⟩ := ((c41_lists hb hst.ordered hst.tame hmid hlow).2.2.2 _).1 hl
  unfold closesLate at h
  rw [List.all_eq_true] at h
  have hmem : t ∈ cfg.specialCloses.map (·.1) ++ cfg.specialClosesAdhoc.map (·.1) := by
    rw [List.mem_append]
    rcases ht with ⟨cal, hc, -⟩ | ⟨days, hc, -⟩
    · exact .inl (List.mem_map.2 ⟨_, hc, rfl⟩)
    · exact .inr (List.mem_map.2 ⟨_, hc, rfl⟩)
  have hall := List.all_eq_true.1 (h t hmem)
  have ho' : o ∈ cfg.tz.base :: cfg.tz.trans.map (·.2) := by
    rcases ho with ⟨b, s, a, he, -, -⟩ | ⟨he, -⟩
    · refine List.mem_cons_of_mem _ (List.mem_map.2 ⟨(s, o), ?_, rfl⟩)
      rw [he]
      simp
    · rw [he]
      exact List.mem_cons_self
  have := of_decide_eq_true (hall o ho')
  omega

theorem none_listed {cfg : Config} {start stop l : Int} {b : Built} (hst : Steady cfg) (hb : build cfg start stop = .ok b)
    (hmid : DAY ∣ start) (hlow : NP_NAT + 3 * DAY ≤ start) (h1 : cfg.specialCloses = [])
    (h2 : cfg.specialClosesAdhoc = []) {p : Prop} (hp : ¬ p) : l ∈ b.earlyCloses ↔ p := by
  rw [no_early hst hb hmid hlow h1 h2]
  exact ⟨fun h => absurd h List.not_mem_nil, fun h => absurd h hp⟩

/-- C99: in a calendar of the library other than XNZE the last day of the range has no early close, whatever the rules
say. -/
theorem c99_last_day {name : String} {cls : CalendarClass} (h : (name, cls) ∈ defaultClasses) (hne : name ≠ "XNZE")
    {start d : Int} {b : Built} (hb : cls.constructFor start (d * DAY) = .ok b) (hmid : DAY ∣ start)
    (hlow : NP_NAT + 3 * DAY ≤ start) : d * DAY ∉ b.earlyCloses := by
  have hb' := constructFor_build hb
  have hst := steady_default h
  clear hb
  @SPLIT
  all_goals first
    | exact absurd rfl hne
    | exact last_lost hst hb' hmid hlow (by decide +kernel)

/-- C99: the session of the last day has one of the full lengths, even if the day has an early close. -/
theorem c99_full_length {name : String} {cls : CalendarClass} (h : (name, cls) ∈ defaultClasses) (hne : name ≠ "XNZE")
    {first start d : Int} {bad odd : List Int} {full short : List Nat} {b : Built}
    (ht : lengthTable.lookup name = some (first, bad, odd, full, short)) (hb : cls.constructFor start (d * DAY) = .ok b)
    (h1 : first * DAY ≤ start) (hmid : DAY ∣ start) (hbad : ∀ d' ∈ bad, d' * DAY < start ∨ d * DAY < d' * DAY)
    (hodd : d ∉ odd) (hd : d * DAY ∈ b.cal.sessions) :
    ∃ ms, b.cal.minutesForSession (d * DAY) = .ok ms ∧ ms.length ∈ full := by
  obtain ⟨ms, hms, hl⟩ := c88_default h ht hb h1 hmid hbad _ hd
  refine ⟨ms, hms, (hl fun d' hd' he => hodd ?_).1 (c99_last_day h hne hb hmid (table_low ht h1))⟩
  have : d = d' := by simp only [DAY] at he; omega
  exact this ▸ hd'

/-- C99: away from the ends of the range `early_closes` has exactly the days with an early close by the rules. -/
theorem c99_inside {name : String} {cls : CalendarClass} (h : (name, cls) ∈ defaultClasses)
    {first start stop : Int} {bad odd : List Int} {full short : List Nat} {b : Built}
    (ht : lengthTable.lookup name = some (first, bad, odd, full, short)) (hb : cls.constructFor start stop = .ok b)
    (h1 : first * DAY ≤ start) (hmid : DAY ∣ start) (hbad : ∀ d ∈ bad, d * DAY < start ∨ stop < d * DAY)
    {d : Int} (ha : start + DAY ≤ d * DAY) (hc : (d + 2) * DAY ≤ stop) :
    d * DAY ∈ b.earlyCloses ↔ ClassEarly cls d := by
  have hb' := constructFor_build hb
  have hst := steady_default h
  have hlow := table_low ht h1
  clear hb
  @SPLIT
  @INSIDE

/-- All early closes of an exchange are on the same day in UTC. -/
def closesSameDay (x : Exchange) (z : Tz) : Bool :=
  (x.specialCloses.map (·.1) ++ x.specialClosesAdhoc.map (·.1)).all fun t =>
    (z.base :: z.trans.map (·.2)).all fun o => decide (0 < t - o ∧ t - o ≤ DAY)

theorem listed_exact {x : Exchange} {z : Tz} {first first' : Int} {bad : List Int} {start : Int} {n : Int} {b : Built}
    (hx : x.check bad = true) (hcl : ClearFrom z first') (hff : first' ≤ first)
    (hcf : ConstructibleFrom x z first bad) (h1 : first * DAY ≤ start) (hmid : DAY ∣ start)
    (hbad : ∀ d ∈ bad, d * DAY < start ∨ n * DAY < d * DAY) (hb : build (x.config z) start (n * DAY) = .ok b)
    (hs : closesSameDay x z = true) {d : Int} :
    d * DAY ∈ b.earlyCloses ↔ HasEarlyClose x d ∧ start ≤ d * DAY ∧ d < n := by
  have hB := hcf start (n * DAY) h1 hmid
  have hsome : ∃ d, start ≤ d * DAY ∧ d * DAY ≤ n * DAY ∧ TradesOn x d := by
    apply Classical.byContradiction
    intro hno
    obtain ⟨why, hw⟩ := hB.empty fun d g1 g2 g3 => hno ⟨d, g1, g2, g3⟩
    rw [hb] at hw
    cases hw
  obtain ⟨b', hb', ss, -, -, -, -, -, -, hE⟩ := hB.succeeds hbad hsome
  rw [hb] at hb'
  cases hb'
  rw [hE]
  have htime : ∀ t, ClosesEarly x d t → ∀ u, OnlyInstant z (d * DAY + t) u → d * DAY < u ∧ u ≤ (d + 1) * DAY := by
    rintro t ht u ⟨⟨o, ho, e⟩, -⟩
    unfold closesSameDay at hs
    rw [List.all_eq_true] at hs
    have hmem : t ∈ x.specialCloses.map (·.1) ++ x.specialClosesAdhoc.map (·.1) := by
      rw [List.mem_append]
      rcases ht with ⟨rules, hc, -⟩ | ⟨days, hc, -⟩
      · exact .inl (List.mem_map.2 ⟨_, hc, rfl⟩)
      · exact .inr (List.mem_map.2 ⟨_, hc, rfl⟩)
    have hall := List.all_eq_true.1 (hs t hmem)
    have ho' : o ∈ z.base :: z.trans.map (·.2) := by
      rcases ho with ⟨b, s, a, he, -, -⟩ | ⟨he, -⟩
      · refine List.mem_cons_of_mem _ (List.mem_map.2 ⟨(s, o), ?_, rfl⟩)
        rw [he]
        simp
      · rw [he]
        exact List.mem_cons_self
    have := of_decide_eq_true (hall o ho')
    simp only [DAY] at *
    omega
  unfold Exchange.check at hx
  simp only [Bool.and_eq_true] at hx
  have ht := hx.1.1.1.1.1
  unfold Exchange.timesB at ht
  simp only [Bool.and_eq_true, List.all_eq_true] at ht
  obtain ⟨⟨-, hsc⟩, hsa⟩ := ht
  constructor
  · rintro ⟨u, d', t, hd, h2, h3, he, hu, h4, h5⟩
    have e : d = d' := by simp only [DAY] at hd; omega
    subst e
    have := htime t he u hu
    refine ⟨⟨t, he⟩, h2, ?_⟩
    simp only [DAY] at *
    omega
  · rintro ⟨⟨t, he⟩, h2, h3⟩
    have hday : hm 8 0 ≤ t ∧ t ≤ hm 21 0 := by
      rcases he with ⟨rules, hr, -⟩ | ⟨days, hr, -⟩
      · exact daytime_of (hsc _ hr)
      · exact daytime_of (hsa _ hr)
    obtain ⟨u, hu⟩ := hcl.clear d (by simp only [DAY] at *; omega) t hday.1 hday.2
    have := htime t he u hu
    refine ⟨u, d, t, rfl, h2, ?_, he, hu, ?_, ?_⟩ <;> simp only [DAY] at * <;> omega

/-- C99: in a calendar of the library other than XNZE `early_closes` has exactly the days of the range with an early close
by the rules, without the last one. -/
theorem c99_exact {name : String} {cls : CalendarClass} (h : (name, cls) ∈ defaultClasses) (hne : name ≠ "XNZE")
    {first start n : Int} {bad odd : List Int} {full short : List Nat} {b : Built}
    (ht : lengthTable.lookup name = some (first, bad, odd, full, short)) (hb : cls.constructFor start (n * DAY) = .ok b)
    (h1 : first * DAY ≤ start) (hmid : DAY ∣ start) (hbad : ∀ d ∈ bad, d * DAY < start ∨ n * DAY < d * DAY) {d : Int} :
    d * DAY ∈ b.earlyCloses ↔ ClassEarly cls d ∧ start ≤ d * DAY ∧ d < n := by
  have hb' := constructFor_build hb
  have hst := steady_default h
  have hlow := table_low ht h1
  clear hb
  @SPLIT
  @EXACT

/-- C99: so for a day with an early close the end of the range decides on the length of the session.  A calendar that ends
on that day gives it a full length, one that ends two days later, or more, a short one. -/
theorem c99_depends {name : String} {cls : CalendarClass} (h : (name, cls) ∈ defaultClasses) (hne : name ≠ "XNZE")
    {first start stop d : Int} {bad odd : List Int} {full short : List Nat} {b b' : Built}
    (ht : lengthTable.lookup name = some (first, bad, odd, full, short))
    (hb : cls.constructFor start (d * DAY) = .ok b) (hb' : cls.constructFor start stop = .ok b')
    (h1 : first * DAY ≤ start) (hmid : DAY ∣ start) (hbad : ∀ d' ∈ bad, d' * DAY < start ∨ stop < d' * DAY)
    (hodd : d ∉ odd) (ha : start + DAY ≤ d * DAY) (hc : (d + 2) * DAY ≤ stop) (he : ClassEarly cls d)
    (hd : d * DAY ∈ b.cal.sessions) (hd' : d * DAY ∈ b'.cal.sessions) :
    ∃ ms ms', b.cal.minutesForSession (d * DAY) = .ok ms ∧ b'.cal.minutesForSession (d * DAY) = .ok ms' ∧
      ms.length ∈ full ∧ ms'.length ∈ short := by
  obtain ⟨ms, hms, hl⟩ := c99_full_length h hne ht hb h1 hmid (fun d' hd' => by
    have := hbad d' hd'
    simp only [DAY] at *
    omega) hodd hd
  obtain ⟨ms', hms', hl'⟩ := c88_default h ht hb' h1 hmid hbad _ hd'
  refine ⟨ms, ms', hms, hms', hl, (hl' fun d' hd' he => hodd ?_).2 ((c99_inside h ht hb' h1 hmid hbad ha hc).2 he)⟩
  have : d = d' := by simp only [DAY] at he; omega
  exact this ▸ hd'

/-- New York closed early on 24 December 2019.  A calendar from 2019 to that day gives the session 390 minutes, one to the
end of the year 210. -/
example : ∃ b b' ms ms',
    (CalendarClass.exchange Xnys.exchange Xnys.zone startDefault).constructFor (dayOf 2019 1 1 * DAY)
      (dayOf 2019 12 24 * DAY) = .ok b ∧
    (CalendarClass.exchange Xnys.exchange Xnys.zone startDefault).constructFor (dayOf 2019 1 1 * DAY)
      (dayOf 2019 12 31 * DAY) = .ok b' ∧
    b.cal.minutesForSession (dayOf 2019 12 24 * DAY) = .ok ms ∧
    b'.cal.minutesForSession (dayOf 2019 12 24 * DAY) = .ok ms' ∧ ms.length = 390 ∧ ms'.length < 390 := by
  have hd : TradesOn Xnys.exchange (dayOf 2019 12 24) := trades_of xnys_check (by decide +kernel)
  have hin : ("XNYS", CalendarClass.exchange Xnys.exchange Xnys.zone startDefault) ∈ defaultClasses := by
    simp [defaultClasses]
  have ht : lengthTable.lookup "XNYS" =
      some (dayOf 1901 12 15, [dayOf 1945 12 24, dayOf 1956 12 24], [], [390], [210, 270]) := by decide +kernel
  obtain ⟨b, hb, -⟩ := (c54_xnys_zone (dayOf 2019 1 1 * DAY) (dayOf 2019 12 24 * DAY)
    (by decide +kernel) (Int.dvd_mul_left _ _)).succeeds (by decide +kernel) ⟨_, by decide +kernel, Int.le_refl _, hd⟩
  obtain ⟨b', hb', -⟩ := (c54_xnys_zone (dayOf 2019 1 1 * DAY) (dayOf 2019 12 31 * DAY)
    (by decide +kernel) (Int.dvd_mul_left _ _)).succeeds (by decide +kernel) ⟨_, by decide +kernel, by decide +kernel, hd⟩
  have hd1 := (gap_labels (trades := TradesOn Xnys.exchange) hb (Int.dvd_mul_left _ _) (classTrades_iff hin) _).2
    ⟨dayOf 2019 12 24, rfl, by decide +kernel, Int.le_refl _, hd⟩
  have hd2 := (gap_labels (trades := TradesOn Xnys.exchange) hb' (Int.dvd_mul_left _ _) (classTrades_iff hin) _).2
    ⟨dayOf 2019 12 24, rfl, by decide +kernel, by decide +kernel, hd⟩
  have he : ClassEarly (CalendarClass.exchange Xnys.exchange Xnys.zone startDefault) (dayOf 2019 12 24) := by
    refine Classical.byContradiction fun hno => ?_
    refine absurd ((onlyEarly_iff Xnys.exchange (d := dayOf 2019 12 24) (by decide +kernel) (by decide +kernel)).2 hno) ?_
    rw [← tradesB_iff (rules_of (by decide +kernel))]
    decide +kernel
  obtain ⟨ms, ms', h1, h2, h3, h4⟩ := c99_depends hin (by decide) ht hb hb' (by decide +kernel) (Int.dvd_mul_left _ _)
    (by decide +kernel) (by simp) (by decide +kernel) (by decide +kernel) he hd1 hd2
  refine ⟨b, b', ms, ms', hb, hb', h1, h2, by simpa using h3, ?_⟩
  simp only [List.mem_cons, List.not_mem_nil, or_false] at h4
  omega

/-- C99: New Zealand is the other way round.  Where its clocks are more than 12:45 ahead of UTC, as they are around
Christmas, an early close on the first day of the range is lost. -/
theorem c99_xnze_first {d stop u : Int} {b : Built}
    (hb : (CalendarClass.exchange Xnze.exchange Xnze.zone startDefault).constructFor (d * DAY) stop = .ok b)
    (hlow : NP_NAT + 3 * DAY ≤ d * DAY) (hu : OnlyInstant Xnze.zone (d * DAY + hm 12 45) u) (hlt : u < d * DAY) :
    d * DAY ∉ b.earlyCloses := by
  intro hl
  have hst := steady_default (name := "XNZE") (cls := .exchange Xnze.exchange Xnze.zone startDefault)
    (by simp [defaultClasses])
  obtain ⟨-, u', t, ht, hi, hge, -⟩ :=
    ((c41_lists (constructFor_build hb) hst.ordered hst.tame (Int.dvd_mul_left _ _) hlow).2.2.2 _).1 hl
  have e : t = hm 12 45 := by
    have hall : ∀ e ∈ (Xnze.exchange.config Xnze.zone).specialCloses, e.1 = hm 12 45 := by
      rintro e (_ | ⟨_, h⟩)
      · rfl
      · cases h
    rcases ht with ⟨cal, hc, -⟩ | ⟨days, hc, -⟩
    · exact hall _ hc
    · cases hc
  subst e
  have := hu.2 u' hi.1
  omega

/-- New Zealand on 24 December 2019: the rules name an early close, its instant is 23:45 UTC of the day before, and a
calendar from that day on can be constructed. -/
example : HasEarlyClose Xnze.exchange (dayOf 2019 12 24) ∧
    OnlyInstant Xnze.zone (dayOf 2019 12 24 * DAY + hm 12 45) (dayOf 2019 12 23 * DAY + hm 23 45) ∧
    ∃ b, (CalendarClass.exchange Xnze.exchange Xnze.zone startDefault).constructFor (dayOf 2019 12 24 * DAY)
      (dayOf 2020 12 31 * DAY) = .ok b := by
  have hd : TradesOn Xnze.exchange (dayOf 2019 12 24) := trades_of xnze_check (by decide +kernel)
  obtain ⟨b, hb, -⟩ := (c54_xnze_zone (dayOf 2019 12 24 * DAY) (dayOf 2020 12 31 * DAY)
    (by decide +kernel) (Int.dvd_mul_left _ _)).succeeds (by simp) ⟨_, Int.le_refl _, by decide +kernel, hd⟩
  refine ⟨?_, (localize_ok_iff clear_nz.tame _ _).1 (by decide +kernel), b, hb⟩
  refine Classical.byContradiction fun hno => ?_
  refine absurd ((onlyEarly_iff Xnze.exchange (d := dayOf 2019 12 24) (by decide +kernel) (by decide +kernel)).2 hno) ?_
  rw [← tradesB_iff (rules_of (by decide +kernel))]
  decide +kernel

end TC.Props
