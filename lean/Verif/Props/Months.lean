import Verif.Props.Months1
import Verif.Props.Months2
import Verif.Props.Months3
import Verif.Props.Months4
import Verif.Props.Months5
import Verif.Props.Months6
import Verif.Props.Months7
import Verif.Props.Months8
import Verif.Props.Gaps

/-!
# C94: how many sessions a month has, and how near to its ends they are
-/

namespace TC.Props
open Spec

set_option maxRecDepth 100000

variable {cfg : Config} {start stop : Int} {b : Built} {trades : Int → Prop}

/-- C94 for `XTAE`. -/
theorem c94_xtae : MonthlyRange (TradesOn Xtae.exchange) 1990 2200 12 23 6 5 := by
  rw [show TradesOn Xtae.exchange = TradesOn telAvivTable from funext fun d => propext (telAviv_trades d)]
  exact months_of (k := 211) ⟨by simp [telAvivTable], by simp [telAvivTable]⟩ (by decide +kernel)
    (by decide) (by decide) (by decide) (by decide) (by decide +kernel)

/-- C94 for the calendar of the name "24/5". -/
theorem c94_24_5 : MonthlyRange (ClassTrades (.simple weekdayCalendar)) 1990 2200 20 23 3 3 := by
  rw [weekdaysOnly_trades]
  exact months_of (k := 211) ⟨by simp [weekdaysOnly], by simp [weekdaysOnly]⟩ (by decide +kernel)
    (by decide) (by decide) (by decide) (by decide) (by decide +kernel)

/-- Every day of the week, without holidays. -/
def everyDay : Exchange := { weekdays := [0, 1, 2, 3, 4, 5, 6], openTimes := [], closeTimes := [] }

/-- The trading days of that calendar. -/
theorem everyDay_trades : ClassTrades (.simple alwaysOpen) = TradesOn everyDay := by
  funext d
  refine propext ⟨fun _ => ⟨⟨weekday d, ?_, (weekday_iff _ _).2 rfl⟩, by simp [everyDay], by simp [everyDay]⟩,
    fun _ => ⟨weekday d, (weekday_iff _ _).2 rfl, by simp [alwaysOpen]⟩⟩
  unfold weekday everyDay
  simp only [List.mem_cons, List.not_mem_nil, or_false]
  omega

/-- C94 for the calendar of the name "24/7". -/
theorem c94_24_7 : MonthlyRange (ClassTrades (.simple alwaysOpen)) 1990 2200 28 31 1 1 := by
  rw [everyDay_trades]
  exact months_of (k := 211) ⟨by simp [everyDay], by simp [everyDay]⟩ (by decide +kernel)
    (by decide) (by decide) (by decide) (by decide) (by decide +kernel)

/-- C94: the table of months for the classes of the library. -/
theorem c94_table {name : String} {cls : CalendarClass} (h : (name, cls) ∈ defaultClasses)
    {lo hi first last : Nat} {y₀ y₁ : Int} (ht : monthTable.lookup name = some (y₀, y₁, lo, hi, first, last)) :
    MonthlyRange (ClassTrades cls) y₀ y₁ lo hi first last := by
  simp only [defaultClasses, List.mem_cons, List.not_mem_nil, or_false, Prod.mk.injEq] at h
  rcases h with ⟨rfl, rfl⟩ | ⟨rfl, rfl⟩ | ⟨rfl, rfl⟩ | ⟨rfl, rfl⟩ | ⟨rfl, rfl⟩ | ⟨rfl, rfl⟩ | ⟨rfl, rfl⟩ | ⟨rfl, rfl⟩ | ⟨rfl, rfl⟩ | ⟨rfl, rfl⟩ | ⟨rfl, rfl⟩ | ⟨rfl, rfl⟩ | ⟨rfl, rfl⟩ | ⟨rfl, rfl⟩ | ⟨rfl, rfl⟩ | ⟨rfl, rfl⟩ | ⟨rfl, rfl⟩ | ⟨rfl, rfl⟩ | ⟨rfl, rfl⟩ | ⟨rfl, rfl⟩ | ⟨rfl, rfl⟩ | ⟨rfl, rfl⟩ | ⟨rfl, rfl⟩ | ⟨rfl, rfl⟩ | ⟨rfl, rfl⟩ | ⟨rfl, rfl⟩ | ⟨rfl, rfl⟩ | ⟨rfl, rfl⟩ | ⟨rfl, rfl⟩ | ⟨rfl, rfl⟩ | ⟨rfl, rfl⟩ | ⟨rfl, rfl⟩ | ⟨rfl, rfl⟩ | ⟨rfl, rfl⟩ | ⟨rfl, rfl⟩ | ⟨rfl, rfl⟩ | ⟨rfl, rfl⟩ | ⟨rfl, rfl⟩ | ⟨rfl, rfl⟩ | ⟨rfl, rfl⟩ | ⟨rfl, rfl⟩ | ⟨rfl, rfl⟩ | ⟨rfl, rfl⟩ | ⟨rfl, rfl⟩ | ⟨rfl, rfl⟩ | ⟨rfl, rfl⟩ | ⟨rfl, rfl⟩ | ⟨rfl, rfl⟩ | ⟨rfl, rfl⟩ | ⟨rfl, rfl⟩ | ⟨rfl, rfl⟩ | ⟨rfl, rfl⟩ | ⟨rfl, rfl⟩
  · rw [show monthTable.lookup "ASEX" = some (2016, 2200, 18, 23, 5, 5) by decide +kernel] at ht; cases ht; exact c94_asex
  · rw [show monthTable.lookup "BVMF" = some (1990, 2200, 18, 23, 5, 5) by decide +kernel] at ht; cases ht; exact c94_bvmf
  · rw [show monthTable.lookup "CMES" = some (1990, 2200, 19, 23, 4, 4) by decide +kernel] at ht; cases ht; exact c94_cmes
  · rw [show monthTable.lookup "IEPA" = some (1990, 2200, 19, 23, 4, 4) by decide +kernel] at ht; cases ht; exact c94_iepa
  · rw [show monthTable.lookup "XAMS" = some (1990, 2200, 18, 23, 5, 5) by decide +kernel] at ht; cases ht; exact c94_xams
  · rw [show monthTable.lookup "XASX" = some (1990, 2200, 17, 23, 5, 5) by decide +kernel] at ht; cases ht; exact c94_xasx
  · rw [show monthTable.lookup "XBKK" = some (1990, 2200, 16, 23, 6, 5) by decide +kernel] at ht; cases ht; exact c94_xbkk
  · rw [show monthTable.lookup "XBOG" = some (1990, 2200, 18, 23, 5, 5) by decide +kernel] at ht; cases ht; exact c94_xbog
  · rw [show monthTable.lookup "XBOM" = some (1997, 2020, 17, 23, 4, 4) by decide +kernel] at ht; cases ht; exact c94_xbom
  · rw [show monthTable.lookup "XBRU" = some (1990, 2200, 18, 23, 5, 5) by decide +kernel] at ht; cases ht; exact c94_xbru
  · rw [show monthTable.lookup "XBUD" = some (1990, 2200, 17, 23, 5, 5) by decide +kernel] at ht; cases ht; exact c94_xbud
  · rw [show monthTable.lookup "XBUE" = some (1990, 2200, 14, 23, 6, 6) by decide +kernel] at ht; cases ht; exact c94_xbue
  · rw [show monthTable.lookup "XCBF" = some (1990, 2200, 19, 23, 4, 4) by decide +kernel] at ht; cases ht; exact c94_xcbf
  · rw [show monthTable.lookup "XCSE" = some (1990, 2200, 17, 23, 6, 6) by decide +kernel] at ht; cases ht; exact c94_xcse
  · rw [show monthTable.lookup "XDUB" = some (1990, 2200, 18, 23, 5, 5) by decide +kernel] at ht; cases ht; exact c94_xdub
  · rw [show monthTable.lookup "XFRA" = some (1990, 2200, 17, 23, 5, 5) by decide +kernel] at ht; cases ht; exact c94_xfra
  · rw [show monthTable.lookup "XETR" = some (1990, 2200, 17, 23, 5, 5) by decide +kernel] at ht; cases ht; exact c94_xetr
  · rw [show monthTable.lookup "XHEL" = some (1990, 2200, 16, 23, 5, 5) by decide +kernel] at ht; cases ht; exact c94_xhel
  · rw [show monthTable.lookup "XHKG" = some (1990, 2049, 16, 23, 6, 5) by decide +kernel] at ht; cases ht; exact c94_xhkg
  · rw [show monthTable.lookup "XICE" = some (1990, 2200, 16, 23, 6, 6) by decide +kernel] at ht; cases ht; exact c94_xice
  · rw [show monthTable.lookup "XIDX" = some (1990, 2200, 13, 23, 10, 10) by decide +kernel] at ht; cases ht; exact c94_xidx
  · rw [show monthTable.lookup "XIST" = some (1990, 2200, 14, 23, 6, 11) by decide +kernel] at ht; cases ht; exact c94_xist
  · rw [show monthTable.lookup "XJSE" = some (1990, 2200, 17, 23, 5, 5) by decide +kernel] at ht; cases ht; exact c94_xjse
  · rw [show monthTable.lookup "XKAR" = some (1990, 2200, 15, 23, 6, 6) by decide +kernel] at ht; cases ht; exact c94_xkar
  · rw [show monthTable.lookup "XKLS" = some (1990, 2200, 16, 23, 6, 5) by decide +kernel] at ht; cases ht; exact c94_xkls
  · rw [show monthTable.lookup "XKRX" = some (1986, 2021, 16, 23, 10, 8) by decide +kernel] at ht; cases ht; exact c94_xkrx
  · rw [show monthTable.lookup "XLIM" = some (1990, 2200, 18, 23, 5, 5) by decide +kernel] at ht; cases ht; exact c94_xlim
  · rw [show monthTable.lookup "XLIS" = some (1990, 2200, 17, 23, 5, 5) by decide +kernel] at ht; cases ht; exact c94_xlis
  · rw [show monthTable.lookup "XLON" = some (1990, 2200, 18, 23, 5, 5) by decide +kernel] at ht; cases ht; exact c94_xlon
  · rw [show monthTable.lookup "XMAD" = some (1990, 2200, 16, 23, 5, 5) by decide +kernel] at ht; cases ht; exact c94_xmad
  · rw [show monthTable.lookup "XMEX" = some (1990, 2200, 18, 23, 5, 5) by decide +kernel] at ht; cases ht; exact c94_xmex
  · rw [show monthTable.lookup "XMIL" = some (1990, 2200, 17, 23, 5, 5) by decide +kernel] at ht; cases ht; exact c94_xmil
  · rw [show monthTable.lookup "XMOS" = some (1990, 2200, 15, 23, 12, 4) by decide +kernel] at ht; cases ht; exact c94_xmos
  · rw [show monthTable.lookup "XNYS" = some (1990, 2200, 15, 23, 4, 4) by decide +kernel] at ht; cases ht; exact c94_xnys
  · rw [show monthTable.lookup "XNZE" = some (1990, 2200, 17, 23, 6, 5) by decide +kernel] at ht; cases ht; exact c94_xnze
  · rw [show monthTable.lookup "XOSL" = some (1990, 2200, 17, 23, 6, 6) by decide +kernel] at ht; cases ht; exact c94_xosl
  · rw [show monthTable.lookup "XPAR" = some (1990, 2200, 18, 23, 5, 5) by decide +kernel] at ht; cases ht; exact c94_xpar
  · rw [show monthTable.lookup "XPHS" = some (1990, 2200, 17, 23, 5, 8) by decide +kernel] at ht; cases ht; exact c94_xphs
  · rw [show monthTable.lookup "XPRA" = some (1990, 2200, 17, 23, 5, 5) by decide +kernel] at ht; cases ht; exact c94_xpra
  · rw [show monthTable.lookup "XSES" = some (1986, 2020, 18, 23, 4, 5) by decide +kernel] at ht; cases ht; exact c94_xses
  · rw [show monthTable.lookup "XSGO" = some (1990, 2200, 17, 23, 5, 4) by decide +kernel] at ht; cases ht; exact c94_xsgo
  · rw [show monthTable.lookup "XSHG" = some (1999, 2025, 7, 23, 14, 20) by decide +kernel] at ht; cases ht; exact c94_xshg
  · rw [show monthTable.lookup "XSTO" = some (1990, 2200, 17, 23, 5, 5) by decide +kernel] at ht; cases ht; exact c94_xsto
  · rw [show monthTable.lookup "XSWX" = some (1990, 2200, 17, 23, 5, 5) by decide +kernel] at ht; cases ht; exact c94_xswx
  · rw [show monthTable.lookup "XTAE" = some (1990, 2200, 12, 23, 6, 5) by decide +kernel] at ht; cases ht; exact c94_xtae
  · rw [show monthTable.lookup "XTAI" = some (1990, 2200, 12, 23, 11, 11) by decide +kernel] at ht; cases ht; exact c94_xtai
  · rw [show monthTable.lookup "XTKS" = some (2000, 2200, 18, 23, 7, 5) by decide +kernel] at ht; cases ht; exact c94_xtks
  · rw [show monthTable.lookup "XTSE" = some (1990, 2200, 17, 23, 4, 4) by decide +kernel] at ht; cases ht; exact c94_xtse
  · rw [show monthTable.lookup "XWAR" = some (1990, 2200, 17, 23, 5, 5) by decide +kernel] at ht; cases ht; exact c94_xwar
  · rw [show monthTable.lookup "XWBO" = some (1990, 2200, 17, 23, 5, 5) by decide +kernel] at ht; cases ht; exact c94_xwbo
  · rw [show monthTable.lookup "us_futures" = some (2000, 2200, 19, 23, 4, 4) by decide +kernel] at ht; cases ht; exact c94_usFuturesCalendar
  · rw [show monthTable.lookup "24/7" = some (1990, 2200, 28, 31, 1, 1) by decide +kernel] at ht; cases ht; exact c94_24_7
  · rw [show monthTable.lookup "24/5" = some (1990, 2200, 20, 23, 3, 3) by decide +kernel] at ht; cases ht; exact c94_24_5

/-- C94: every class of the library is in the table. -/
theorem c94_every {name : String} {cls : CalendarClass} (h : (name, cls) ∈ defaultClasses) :
    ∃ y₀ y₁ lo hi first last, monthTable.lookup name = some (y₀, y₁, lo, hi, first, last) := by
  have hall : (defaultClasses.map Prod.fst).all (fun n => (monthTable.lookup n).isSome) = true := by
    decide +kernel
  have := List.all_eq_true.1 hall name (List.mem_map_of_mem (f := Prod.fst) h)
  obtain ⟨⟨y₀, y₁, lo, hi, first, last⟩, hx⟩ := Option.isSome_iff_exists.1 this
  exact ⟨y₀, y₁, lo, hi, first, last, hx⟩

/-- C94: the sessions of a month in the range of the calendar. -/
theorem c94_month (h : Steady cfg) (hb : build cfg start stop = .ok b) (hmid : DAY ∣ start)
    (hlow : NP_NAT + 3 * DAY ≤ start) (ht : ∀ d, TradingDay cfg d ↔ trades d) {y₀ y₁ : Int} {lo hi first last : Nat}
    (hr : MonthlyRange trades y₀ y₁ lo hi first last) {y m d₀ d₁ : Int} (h0 : y₀ ≤ y) (h1 : y ≤ y₁)
    (hd₀ : DayNumber ⟨y, m, 1⟩ d₀) (hd₁ : DayNumber ⟨y, m, monthLength y m⟩ d₁) (ha : start ≤ d₀ * DAY)
    (hc : d₁ * DAY ≤ stop) :
    lo ≤ (b.cal.sessionsInRange (d₀ * DAY) (d₁ * DAY)).length ∧
    (b.cal.sessionsInRange (d₀ * DAY) (d₁ * DAY)).length ≤ hi ∧
    (∃ l ∈ b.cal.sessionsInRange (d₀ * DAY) (d₁ * DAY), l < (d₀ + first) * DAY) ∧
    ∃ l ∈ b.cal.sessionsInRange (d₀ * DAY) (d₁ * DAY), (d₁ - last) * DAY < l := by
  obtain ⟨hof, hreg, hwm⟩ := gap_regular h hb hmid hlow
  have hlab := gap_labels hb hmid ht
  rw [hof] at hlab ⊢
  obtain ⟨hv, e0⟩ := (dayNumber_iff _ _).1 hd₀
  obtain ⟨-, e1⟩ := (dayNumber_iff _ _).1 hd₁
  obtain ⟨hm1, hm2, -, -⟩ := hv
  simp only at hm1 hm2 e0 e1
  have mon : ∀ k d, DayNumber ⟨y, m, k⟩ d ↔ 1 ≤ k ∧ k ≤ monthLength y m ∧ d = d₀ + (k - 1) := by
    intro k d
    rw [dayNumber_iff, ← e0]
    unfold Date.Valid dayOf
    simp only
    omega
  have e2 : d₁ = d₀ + (monthLength y m - 1) := ((mon _ _).1 hd₁).2.2
  have mem : ∀ x, x ∈ (Cal.ofSessions (rowsOf b.cal)).sessionsInRange (d₀ * DAY) (d₁ * DAY) ↔
      ∃ d, x = d * DAY ∧ (∃ k, DayNumber ⟨y, m, k⟩ d) ∧ trades d := by
    intro x
    rw [(c26_sessions_in_range hreg _ _).1, List.mem_filter, decide_eq_true_eq, hlab]
    simp only [mon]
    constructor
    · rintro ⟨⟨d, rfl, -, -, hd⟩, h4, h5⟩
      exact ⟨d, rfl, ⟨d - d₀ + 1, by simp only [DAY] at *; omega, by simp only [DAY] at *; omega, by omega⟩, hd⟩
    · rintro ⟨d, rfl, ⟨k, h4, h5, h6⟩, hd⟩
      have b1 : d₀ * DAY ≤ d * DAY := by simp only [DAY]; omega
      have b2 : d * DAY ≤ d₁ * DAY := by simp only [DAY]; omega
      exact ⟨⟨d, rfl, by omega, by omega, hd⟩, b1, b2⟩
  obtain ⟨n, ⟨l, hs, hl, rfl⟩, hlo, hhi⟩ := hr.within y m h0 h1 hm1 hm2
  have hlen : (Cal.ofSessions (rowsOf b.cal)).sessionsInRange (d₀ * DAY) (d₁ * DAY) = l.map (· * DAY) := by
    have hss : SortedLT ((Cal.ofSessions (rowsOf b.cal)).sessionsInRange (d₀ * DAY) (d₁ * DAY)) := by
      rw [(c26_sessions_in_range hreg _ _).1]
      exact hreg.labels_sorted.filter _
    refine sorted_ext hss ?_ fun x => ?_
    · rw [SortedLT, List.pairwise_map]
      exact hs.imp (fun {a b} h => by simp only [DAY]; omega)
    · rw [mem, List.mem_map]
      simp only [hl]
      exact ⟨fun ⟨d, h1, h2⟩ => ⟨d, h2, h1.symm⟩, fun ⟨d, h1, h2⟩ => ⟨d, h2.symm, h1⟩⟩
  refine ⟨by rw [hlen, List.length_map]; exact hlo, by rw [hlen, List.length_map]; exact hhi, ?_, ?_⟩
  · obtain ⟨k, d, hd, hk, htr⟩ := hr.firstBy y m h0 h1 hm1 hm2
    refine ⟨d * DAY, (mem _).2 ⟨d, rfl, ⟨k, hd⟩, htr⟩, ?_⟩
    have := (mon _ _).1 hd
    simp only [DAY]
    omega
  · obtain ⟨k, d, hd, hk, htr⟩ := hr.lastFrom y m h0 h1 hm1 hm2
    refine ⟨d * DAY, (mem _).2 ⟨d, rfl, ⟨k, hd⟩, htr⟩, ?_⟩
    have := (mon _ _).1 hd
    simp only [DAY]
    omega

/-- C94 for calendars of the classes of the library. -/
theorem c94_default {name : String} {cls : CalendarClass} (h : (name, cls) ∈ defaultClasses)
    {lo hi first last : Nat} {y₀ y₁ : Int} (ht : monthTable.lookup name = some (y₀, y₁, lo, hi, first, last))
    (hb : cls.constructFor start stop = .ok b) (hmid : DAY ∣ start) (hlow : NP_NAT + 3 * DAY ≤ start)
    {y m d₀ d₁ : Int} (h0 : y₀ ≤ y) (h1 : y ≤ y₁)
    (hd₀ : DayNumber ⟨y, m, 1⟩ d₀) (hd₁ : DayNumber ⟨y, m, monthLength y m⟩ d₁) (ha : start ≤ d₀ * DAY)
    (hc : d₁ * DAY ≤ stop) :
    lo ≤ (b.cal.sessionsInRange (d₀ * DAY) (d₁ * DAY)).length ∧
    (b.cal.sessionsInRange (d₀ * DAY) (d₁ * DAY)).length ≤ hi ∧
    (∃ l ∈ b.cal.sessionsInRange (d₀ * DAY) (d₁ * DAY), l < (d₀ + first) * DAY) ∧
    ∃ l ∈ b.cal.sessionsInRange (d₀ * DAY) (d₁ * DAY), (d₁ - last) * DAY < l :=
  c94_month (steady_default h) (constructFor_build hb) hmid hlow (classTrades_iff h) (c94_table h ht) h0 h1 hd₀ hd₁ ha hc

/-- XNYS for 2019: February has between 15 and 23 sessions, one among its first four days and one among its
last four. -/
example : ∃ b, (CalendarClass.exchange Xnys.exchange Xnys.zone startDefault).constructFor (dayOf 2019 1 1 * DAY)
      (dayOf 2019 12 31 * DAY) = .ok b ∧
    15 ≤ (b.cal.sessionsInRange (dayOf 2019 2 1 * DAY) (dayOf 2019 2 28 * DAY)).length ∧
    (b.cal.sessionsInRange (dayOf 2019 2 1 * DAY) (dayOf 2019 2 28 * DAY)).length ≤ 23 ∧
    (∃ l ∈ b.cal.sessionsInRange (dayOf 2019 2 1 * DAY) (dayOf 2019 2 28 * DAY), l < (dayOf 2019 2 1 + 4) * DAY) ∧
    ∃ l ∈ b.cal.sessionsInRange (dayOf 2019 2 1 * DAY) (dayOf 2019 2 28 * DAY), (dayOf 2019 2 28 - 4) * DAY < l := by
  have hd : TradesOn Xnys.exchange (dayOf 2019 10 16) := trades_of xnys_check (by decide +kernel)
  obtain ⟨b, hb, -⟩ := (c54_xnys_zone (dayOf 2019 1 1 * DAY) (dayOf 2019 12 31 * DAY) (by decide +kernel)
    (Int.dvd_mul_left _ _)).succeeds (by decide +kernel) ⟨_, by decide +kernel, by decide +kernel, hd⟩
  exact ⟨b, hb, c94_default (name := "XNYS") (cls := .exchange Xnys.exchange Xnys.zone startDefault) (y := 2019) (m := 2)
    (by simp [defaultClasses]) (show monthTable.lookup "XNYS" = some (1990, 2200, 15, 23, 4, 4) by decide +kernel) hb
    (Int.dvd_mul_left _ _) (by decide +kernel) (by decide) (by decide)
    ((dayNumber_iff _ _).2 ⟨by unfold Date.Valid; decide, rfl⟩)
    ((dayNumber_iff _ _).2 ⟨by unfold Date.Valid; decide, by decide +kernel⟩)
    (by decide +kernel) (by decide +kernel)⟩

/-- C94: ASEX has no session in July 2015. -/
theorem c94_asex_july : MonthTradingDays (TradesOn Asex.exchange) 2015 7 0 := by
  refine ⟨[], List.Pairwise.nil, fun d => ⟨nofun, ?_⟩, rfl⟩
  rintro ⟨⟨k, hk⟩, ht⟩
  obtain ⟨h1, h2, rfl⟩ := (dayNumber_month (m := 7) (by decide) (by decide)).1 hk
  have e : monthDays 2015 7 = 31 := by decide +kernel
  rw [e] at h2
  have hb := (onesB_iff _ 31).1 (show onesB ((Asex.exchange.closedBits >>> (dayOf 2015 (7 : Nat) 1 + 28000).toNat) %
    2 ^ monthDays 2015 7) 31 = true by decide +kernel) (k - 1).toNat (by omega)
  rw [(month_bit (rules_of_check asex_check) (by decide +kernel) (by decide) (by decide) (by decide) (by decide)
    (by rw [e]; omega)).2 (by rwa [show ((k - 1).toNat : Int) = k - 1 by omega])] at hb
  cases hb

/-- C94: XSHG has seven sessions in February 1999, the least of the table. -/
theorem c94_xshg_february : MonthTradingDays (TradesOn Xshg.exchange) 1999 2 7 := by
  have := month_count (x := Xshg.exchange) (rules_of_check xshg_check) (by decide +kernel) (y := 1999) (m := 2)
    (by decide) (by decide) (by decide) (by decide)
  rw [show zerosByWeek weekTable 4 (Nat.sub (monthDays 1999 2) 28)
    ((Xshg.exchange.closedBits >>> (dayOf 1999 (2 : Nat) 1 + 28000).toNat) % 2 ^ monthDays 1999 2) = 7 by
      decide +kernel] at this
  exact this

end TC.Props
