import Verif.Lemmas.EarlyYearCount
import Verif.Props.EarlyYear1
import Verif.Props.EarlyYear2
import Verif.Props.EarlyYear3
import Verif.Props.EarlyYear4

/-!
# Early closes and minutes of a year (C98)

Written by `tools/gen_early.py` from `tools/EarlyYear.in`.
-/

namespace TC.Props
open Spec

theorem not_early {x : Exchange} (h1 : x.specialCloses = []) (h2 : x.specialClosesAdhoc = []) (d : Int) :
    ¬ HasEarlyClose x d := by
  rintro ⟨t, ⟨rules, hm, -⟩ | ⟨days, hm, -⟩⟩
  · rw [h1] at hm
    exact absurd hm List.not_mem_nil
  · rw [h2] at hm
    exact absurd hm List.not_mem_nil

theorem none_year {cfg : Config} {start stop : Int} {b : Built} (hst : Steady cfg) (hb : build cfg start stop = .ok b)
    (hmid : DAY ∣ start) (hlow : NP_NAT + 3 * DAY ≤ start) (h1 : cfg.specialCloses = [])
    (h2 : cfg.specialClosesAdhoc = []) {p : Int → Prop} (hp : ∀ d, ¬ p d) {y : Int} {n : Nat} (hn : TradingDays p y n)
    {ls : List Int} : (ls.filter fun l => l ∈ b.earlyCloses).length = n := by
  obtain ⟨l, -, hl, rfl⟩ := hn
  rw [no_early hst hb hmid hlow h1 h2]
  have : l = [] := List.eq_nil_iff_forall_not_mem.2 fun d hd => hp d ((hl d).1 hd).2
  subst this
  simp

theorem row_eq {a a' b b' : Int} {c c' d d' : Nat} (h : some (a, b, c, d) = some (a', b', c', d')) :
    a = a' ∧ b = b' ∧ c = c' ∧ d = d' := by
  cases h
  exact ⟨rfl, rfl, rfl, rfl⟩

theorem entry6_eq {f f' s s' : Nat} {a a' b b' : Int} {c c' d d' : Nat}
    (h : some (f, s, a, b, c, d) = some (f', s', a', b', c', d')) :
    f = f' ∧ s = s' ∧ a = a' ∧ b = b' ∧ c = c' ∧ d = d' := by
  cases h
  exact ⟨rfl, rfl, rfl, rfl, rfl, rfl⟩

theorem table_low {name : String} {first start : Int} {bad odd : List Int} {full short : List Nat}
    (ht : lengthTable.lookup name = some (first, bad, odd, full, short)) (h1 : first * DAY ≤ start) :
    NP_NAT + 3 * DAY ≤ start := by
  have : ∀ p ∈ lengthTable, NP_NAT + 3 * DAY ≤ p.2.1 * DAY := by decide +kernel
  have := this _ (mem_of_lookup ht)
  simp only at this
  omega

/-- C98: in a calendar of the library the sessions of a year that `early_closes` lists are as many as the year has days
with an early close by the rules, if the range has a day more before the year and two days more after it. -/
theorem c98_listed {name : String} {cls : CalendarClass} (h : (name, cls) ∈ defaultClasses)
    {first start stop : Int} {bad odd : List Int} {full short : List Nat} {b : Built}
    (ht : lengthTable.lookup name = some (first, bad, odd, full, short)) (hb : cls.constructFor start stop = .ok b)
    (h1 : first * DAY ≤ start) (hmid : DAY ∣ start) (hbad : ∀ d ∈ bad, d * DAY < start ∨ stop < d * DAY)
    {y d₀ d₁ : Int} (hd₀ : DayNumber ⟨y, 1, 1⟩ d₀) (hd₁ : DayNumber ⟨y, 12, 31⟩ d₁) (ha : start + DAY ≤ d₀ * DAY)
    (hc : (d₁ + 2) * DAY ≤ stop) {n : Nat} (hn : TradingDays (ClassEarly cls) y n) :
    ((b.cal.sessionsInRange (d₀ * DAY) (d₁ * DAY)).filter fun l => l ∈ b.earlyCloses).length = n := by
  have hb' := constructFor_build hb
  have hst := steady_default h
  have hlow := table_low ht h1
  clear hb
  @SPLIT
  @YEAR

/-- C98: the table of early closes for the classes of the library. -/
theorem c98_table {name : String} {cls : CalendarClass} (h : (name, cls) ∈ defaultClasses)
    {lo hi : Nat} {y₀ y₁ : Int} (ht : earlyTable.lookup name = some (y₀, y₁, lo, hi)) :
    YearlyRange (ClassEarly cls) y₀ y₁ lo hi := by
  @SPLIT
  @EARLY

/-- C98: the table of minutes for the classes of the library. -/
theorem c98_minutes_table {name : String} {cls : CalendarClass} (h : (name, cls) ∈ defaultClasses)
    {f s lo hi : Nat} {y₀ y₁ : Int} (ht : minutesTable.lookup name = some (f, s, y₀, y₁, lo, hi)) :
    MinutesRange (ClassTrades cls) (ClassEarly cls) f s y₀ y₁ lo hi := by
  @SPLIT
  @MINUTES

/-- C98 for calendars of the library: how many early closes a year has. -/
theorem c98_default {name : String} {cls : CalendarClass} (h : (name, cls) ∈ defaultClasses)
    {first start stop : Int} {bad odd : List Int} {full short : List Nat} {b : Built}
    (ht : lengthTable.lookup name = some (first, bad, odd, full, short)) {y₀ y₁ : Int} {lo hi : Nat}
    (he : earlyTable.lookup name = some (y₀, y₁, lo, hi)) (hb : cls.constructFor start stop = .ok b)
    (h1 : first * DAY ≤ start) (hmid : DAY ∣ start) (hbad : ∀ d ∈ bad, d * DAY < start ∨ stop < d * DAY)
    {y d₀ d₁ : Int} (hy₀ : y₀ ≤ y) (hy₁ : y ≤ y₁) (hd₀ : DayNumber ⟨y, 1, 1⟩ d₀) (hd₁ : DayNumber ⟨y, 12, 31⟩ d₁)
    (ha : start + DAY ≤ d₀ * DAY) (hc : (d₁ + 2) * DAY ≤ stop) :
    lo ≤ ((b.cal.sessionsInRange (d₀ * DAY) (d₁ * DAY)).filter fun l => l ∈ b.earlyCloses).length ∧
    ((b.cal.sessionsInRange (d₀ * DAY) (d₁ * DAY)).filter fun l => l ∈ b.earlyCloses).length ≤ hi := by
  obtain ⟨n, hn, hlo, hhi⟩ := (c98_table h he).within y hy₀ hy₁
  rw [c98_listed h ht hb h1 hmid hbad hd₀ hd₁ ha hc hn]
  exact ⟨hlo, hhi⟩

/-- C98: a calendar of the library that is not in the table has no early closes. -/
theorem c98_others {name : String} {cls : CalendarClass} (h : (name, cls) ∈ defaultClasses)
    (he : earlyTable.lookup name = none) {start stop : Int} {b : Built} (hb : cls.constructFor start stop = .ok b)
    (hmid : DAY ∣ start) (hlow : NP_NAT + 3 * DAY ≤ start) : b.earlyCloses = [] := by
  have hb' := constructFor_build hb
  have hst := steady_default h
  clear hb
  @SPLIT
  all_goals first
    | exact no_early hst hb' hmid hlow rfl rfl
    | exact absurd he (by decide +kernel)

theorem no_late {cfg : Config} {start stop : Int} {b : Built} (hst : Steady cfg) (hb : build cfg start stop = .ok b)
    (hmid : DAY ∣ start) (hlow : NP_NAT + 3 * DAY ≤ start) (h1 : cfg.specialOpens = [])
    (h2 : cfg.specialOpensAdhoc = []) : b.lateOpens = [] := by
  refine List.eq_nil_iff_forall_not_mem.2 fun l hl => ?_
  obtain ⟨-, u, t, hu, -⟩ := ((c41_lists hb hst.ordered hst.tame hmid hlow).2.2.1 l).1 hl
  rcases hu with ⟨f, hf, -⟩ | ⟨f, hf, -⟩
  · rw [h1] at hf
    exact absurd hf List.not_mem_nil
  · rw [h2] at hf
    exact absurd hf List.not_mem_nil

/-- C98: no calendar of the library has late opens. -/
theorem c98_no_late_opens {name : String} {cls : CalendarClass} (h : (name, cls) ∈ defaultClasses) {start stop : Int}
    {b : Built} (hb : cls.constructFor start stop = .ok b) (hmid : DAY ∣ start) (hlow : NP_NAT + 3 * DAY ≤ start) :
    b.lateOpens = [] := by
  have hb' := constructFor_build hb
  have hst := steady_default h
  clear hb
  @SPLIT
  all_goals exact no_late hst hb' hmid hlow rfl rfl

theorem length_of_days {cfg : Config} {trades : Int → Prop} {start stop : Int} {b : Built} (h : Steady cfg)
    (hb : build cfg start stop = .ok b) (hm : DAY ∣ start) (hlow : NP_NAT + 3 * DAY ≤ start)
    (ht : ∀ d, TradingDay cfg d ↔ trades d) {y d₀ d₁ : Int} {n : Nat} (hn : TradingDays trades y n)
    (hd₀ : DayNumber ⟨y, 1, 1⟩ d₀) (hd₁ : DayNumber ⟨y, 12, 31⟩ d₁) (ha : start ≤ d₀ * DAY) (hc : d₁ * DAY ≤ stop) :
    (b.cal.sessionsInRange (d₀ * DAY) (d₁ * DAY)).length = n := by
  have hy : YearlyRange trades y y n n :=
    ⟨fun y' h1 h2 => by
      have : y' = y := by omega
      exact ⟨n, this ▸ hn, Nat.le_refl _, Nat.le_refl _⟩,
     ⟨y, Int.le_refl _, Int.le_refl _, hn⟩, ⟨y, Int.le_refl _, Int.le_refl _, hn⟩⟩
  have := c84_year h hb hm hlow ht hy (Int.le_refl _) (Int.le_refl _) hd₀ hd₁ ha hc
  omega

/-- C98: where full sessions have one length and early closes have one, `minutes_count_for_sessions_in_range` over a year
is exactly the number of minutes by the rules. -/
theorem c98_minutes {name : String} {cls : CalendarClass} (h : (name, cls) ∈ defaultClasses) (hne : name ≠ "XHKG")
    {first start stop : Int} {bad odd : List Int} {full short : List Nat} {b : Built}
    (ht : lengthTable.lookup name = some (first, bad, odd, full, short)) (hb : cls.constructFor start stop = .ok b)
    (h1 : first * DAY ≤ start) (hmid : DAY ∣ start) (hbad : ∀ d ∈ bad, d * DAY < start ∨ stop < d * DAY)
    {f s : Nat} (hf : ∀ k ∈ full, k = f) (hs : ∀ k ∈ short, k = s)
    {y d₀ d₁ : Int} (hd₀ : DayNumber ⟨y, 1, 1⟩ d₀) (hd₁ : DayNumber ⟨y, 12, 31⟩ d₁)
    (hodd : ∀ d ∈ odd, d < d₀ ∨ d₁ < d) (ha : start + DAY ≤ d₀ * DAY) (hc : (d₁ + 2) * DAY ≤ stop) {k : Nat}
    (hk : MinutesOfYear (ClassTrades cls) (ClassEarly cls) f s y k) :
    b.cal.minutesCountForSessionsInRange (d₀ * DAY) (d₁ * DAY) = k := by
  obtain ⟨n, e, hn, he, rfl⟩ := hk
  have hst := steady_default h
  have hlow := table_low ht h1
  have hE := c98_listed h ht hb h1 hmid hbad hd₀ hd₁ ha hc he
  have hT := length_of_days hst (constructFor_build hb) hmid hlow (classTrades_iff h) hn hd₀ hd₁
    (by simp only [DAY] at *; omega) (by simp only [DAY] at *; omega)
  rw [c88_count_exact h hne ht hb h1 hmid hbad hf hs (fun d hd => by
    have := hodd d hd
    simp only [DAY]
    omega)]
  have hsum := List.length_eq_countP_add_countP (l := b.cal.sessionsInRange (d₀ * DAY) (d₁ * DAY))
    fun l => decide (l ∈ b.earlyCloses)
  rw [List.countP_eq_length_filter, List.countP_eq_length_filter] at hsum
  simp only [decide_eq_true_eq] at hsum
  rw [hE] at hsum ⊢
  have : ((b.cal.sessionsInRange (d₀ * DAY) (d₁ * DAY)).filter fun l => l ∉ b.earlyCloses).length = n := by omega
  rw [this]

/-- C98 for calendars of the library: the number of minutes that `minutes_count_for_sessions_in_range` gives for a
year. -/
theorem c98_minutes_default {name : String} {cls : CalendarClass} (h : (name, cls) ∈ defaultClasses)
    {first start stop : Int} {bad odd : List Int} {full short : List Nat} {b : Built}
    (ht : lengthTable.lookup name = some (first, bad, odd, full, short)) {f s lo hi : Nat} {y₀ y₁ : Int}
    (he : minutesTable.lookup name = some (f, s, y₀, y₁, lo, hi)) (hb : cls.constructFor start stop = .ok b)
    (h1 : first * DAY ≤ start) (hmid : DAY ∣ start) (hbad : ∀ d ∈ bad, d * DAY < start ∨ stop < d * DAY)
    {y d₀ d₁ : Int} (hy₀ : y₀ ≤ y) (hy₁ : y ≤ y₁) (hd₀ : DayNumber ⟨y, 1, 1⟩ d₀) (hd₁ : DayNumber ⟨y, 12, 31⟩ d₁)
    (ha : start + DAY ≤ d₀ * DAY) (hc : (d₁ + 2) * DAY ≤ stop) :
    (lo : Int) ≤ b.cal.minutesCountForSessionsInRange (d₀ * DAY) (d₁ * DAY) ∧
    b.cal.minutesCountForSessionsInRange (d₀ * DAY) (d₁ * DAY) ≤ hi := by
  have hfits : ∀ p ∈ minutesTable, ∀ q ∈ lengthTable, q.1 = p.1 → p.1 ≠ "XHKG" ∧
      (∀ d ∈ q.2.2.2.1, d < dayOf 1990 1 1) ∧ (∀ k ∈ q.2.2.2.2.1, k = p.2.1) ∧ (∀ k ∈ q.2.2.2.2.2, k = p.2.2.1) ∧
      1990 ≤ p.2.2.2.1 := by decide +kernel
  obtain ⟨hne, hodd, hf, hs, hyr⟩ := hfits _ (mem_of_lookup he) _ (mem_of_lookup ht) rfl
  simp only at hne hodd hf hs hyr
  obtain ⟨k, hk, hlo, hhi⟩ := (c98_minutes_table h he).within y hy₀ hy₁
  have e0 : d₀ = jan1 y := (dayNumber_jan1 _ _).1 hd₀
  have l0 : jan1 1990 ≤ jan1 y := jan1_le_iff.2 (by omega)
  have e1 : jan1 1990 = dayOf 1990 1 1 := by decide +kernel
  rw [c98_minutes h hne ht hb h1 hmid hbad hf hs hd₀ hd₁ (fun d hd => by have := hodd d hd; omega) ha hc hk]
  omega

/-- XLON from 2018 to 2020 can be constructed; 2019 has one or two early closes, and from 127530 to 129060 minutes. -/
example : ∃ b, (CalendarClass.exchange Xlon.exchange Xlon.zone startDefault).constructFor (dayOf 2018 1 1 * DAY)
      (dayOf 2020 12 31 * DAY) = .ok b ∧
    127530 ≤ b.cal.minutesCountForSessionsInRange (dayOf 2019 1 1 * DAY) (dayOf 2019 12 31 * DAY) ∧
    b.cal.minutesCountForSessionsInRange (dayOf 2019 1 1 * DAY) (dayOf 2019 12 31 * DAY) ≤ 129060 ∧
    1 ≤ ((b.cal.sessionsInRange (dayOf 2019 1 1 * DAY) (dayOf 2019 12 31 * DAY)).filter
      fun l => l ∈ b.earlyCloses).length := by
  have hd : TradesOn Xlon.exchange (dayOf 2019 10 16) := trades_of xlon_check (by decide +kernel)
  obtain ⟨b, hb, -⟩ := (c54_xlon_zone (dayOf 2018 1 1 * DAY) (dayOf 2020 12 31 * DAY)
    (by decide +kernel) (Int.dvd_mul_left _ _)).succeeds (by simp) ⟨_, by decide +kernel, by decide +kernel, hd⟩
  have hl : lengthTable.lookup "XLON" = some (dayOf 1901 12 15, [], [], [510], [270]) := by decide +kernel
  have hin : ("XLON", CalendarClass.exchange Xlon.exchange Xlon.zone startDefault) ∈ defaultClasses := by
    simp [defaultClasses]
  have hd₀ : DayNumber ⟨2019, 1, 1⟩ (dayOf 2019 1 1) := (dayNumber_iff _ _).2 (by decide +kernel)
  have hd₁ : DayNumber ⟨2019, 12, 31⟩ (dayOf 2019 12 31) := (dayNumber_iff _ _).2 (by decide +kernel)
  have hm := c98_minutes_default hin hl (show minutesTable.lookup "XLON" = some (510, 270, 1990, 2200, 127530, 129060) by
    decide +kernel) hb (by decide +kernel) (Int.dvd_mul_left _ _) (by simp) (by decide) (by decide) hd₀ hd₁
    (by decide +kernel) (by decide +kernel)
  have he := c98_default hin hl (show earlyTable.lookup "XLON" = some (1990, 2200, 1, 2) by decide +kernel) hb
    (by decide +kernel) (Int.dvd_mul_left _ _) (by simp) (by decide) (by decide) hd₀ hd₁ (by decide +kernel)
    (by decide +kernel)
  exact ⟨b, hb, hm.1, hm.2, he.1⟩

/-- New Zealand's calendar has early closes, that of Iceland has none. -/
example : HasEarlyClose Xnze.exchange (dayOf 2019 12 24) ∧ earlyTable.lookup "XICE" = none := by
  refine ⟨?_, by decide +kernel⟩
  apply Classical.byContradiction
  intro hno
  exact absurd ((onlyEarly_iff Xnze.exchange (d := dayOf 2019 12 24) (by decide +kernel) (by decide +kernel)).2 hno) (by
    rw [← tradesB_iff (rules_of (by decide +kernel))]
    decide +kernel)

end TC.Props
