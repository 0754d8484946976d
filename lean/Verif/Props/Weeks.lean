import Verif.Props.Months

/-!
# C96: how many sessions a week has, and which weeks have none
-/

namespace TC.Props
open Spec

set_option maxRecDepth 100000

variable {cfg : Config} {start stop : Int} {b : Built} {trades : Int → Prop}

/-- C96 for `XTAE`. -/
theorem c96_xtae : WeeklyRange (TradesOn Xtae.exchange) 1990 2200 2 5 [] := by
  rw [show TradesOn Xtae.exchange = TradesOn telAvivTable from funext fun d => propext (telAviv_trades d)]
  exact weeks_of ⟨by simp [telAvivTable], by simp [telAvivTable]⟩ (by decide +kernel)
    (by decide) (by decide) (by decide +kernel)

/-- C96 for the calendar of the name "24/5". -/
theorem c96_24_5 : WeeklyRange (ClassTrades (.simple weekdayCalendar)) 1990 2200 5 5 [] := by
  rw [weekdaysOnly_trades]
  exact weeks_of ⟨by simp [weekdaysOnly], by simp [weekdaysOnly]⟩ (by decide +kernel)
    (by decide) (by decide) (by decide +kernel)

/-- C96 for the calendar of the name "24/7". -/
theorem c96_24_7 : WeeklyRange (ClassTrades (.simple alwaysOpen)) 1990 2200 7 7 [] := by
  rw [everyDay_trades]
  exact weeks_of ⟨by simp [everyDay], by simp [everyDay]⟩ (by decide +kernel)
    (by decide) (by decide) (by decide +kernel)

/-- C96: the table of weeks for the classes of the library. -/
theorem c96_table {name : String} {cls : CalendarClass} (h : (name, cls) ∈ defaultClasses)
    {lo hi : Nat} {y₀ y₁ : Int} {empty : List Date}
    (ht : weeklyTable.lookup name = some (y₀, y₁, lo, hi, empty)) :
    WeeklyRange (ClassTrades cls) y₀ y₁ lo hi empty := by
  simp only [defaultClasses, List.mem_cons, List.not_mem_nil, or_false, Prod.mk.injEq] at h
  rcases h with ⟨rfl, rfl⟩ | ⟨rfl, rfl⟩ | ⟨rfl, rfl⟩ | ⟨rfl, rfl⟩ | ⟨rfl, rfl⟩ | ⟨rfl, rfl⟩ | ⟨rfl, rfl⟩ | ⟨rfl, rfl⟩ | ⟨rfl, rfl⟩ | ⟨rfl, rfl⟩ | ⟨rfl, rfl⟩ | ⟨rfl, rfl⟩ | ⟨rfl, rfl⟩ | ⟨rfl, rfl⟩ | ⟨rfl, rfl⟩ | ⟨rfl, rfl⟩ | ⟨rfl, rfl⟩ | ⟨rfl, rfl⟩ | ⟨rfl, rfl⟩ | ⟨rfl, rfl⟩ | ⟨rfl, rfl⟩ | ⟨rfl, rfl⟩ | ⟨rfl, rfl⟩ | ⟨rfl, rfl⟩ | ⟨rfl, rfl⟩ | ⟨rfl, rfl⟩ | ⟨rfl, rfl⟩ | ⟨rfl, rfl⟩ | ⟨rfl, rfl⟩ | ⟨rfl, rfl⟩ | ⟨rfl, rfl⟩ | ⟨rfl, rfl⟩ | ⟨rfl, rfl⟩ | ⟨rfl, rfl⟩ | ⟨rfl, rfl⟩ | ⟨rfl, rfl⟩ | ⟨rfl, rfl⟩ | ⟨rfl, rfl⟩ | ⟨rfl, rfl⟩ | ⟨rfl, rfl⟩ | ⟨rfl, rfl⟩ | ⟨rfl, rfl⟩ | ⟨rfl, rfl⟩ | ⟨rfl, rfl⟩ | ⟨rfl, rfl⟩ | ⟨rfl, rfl⟩ | ⟨rfl, rfl⟩ | ⟨rfl, rfl⟩ | ⟨rfl, rfl⟩ | ⟨rfl, rfl⟩ | ⟨rfl, rfl⟩ | ⟨rfl, rfl⟩ | ⟨rfl, rfl⟩
  · rw [show weeklyTable.lookup "ASEX" = some (1990, 2200, 0, 5, [⟨2015, 6, 29⟩, ⟨2015, 7, 6⟩, ⟨2015, 7, 13⟩, ⟨2015, 7, 20⟩, ⟨2015, 7, 27⟩]) by decide +kernel] at ht; cases ht; exact c96_asex
  · rw [show weeklyTable.lookup "BVMF" = some (1990, 2200, 3, 5, []) by decide +kernel] at ht; cases ht; exact c96_bvmf
  · rw [show weeklyTable.lookup "CMES" = some (1990, 2200, 3, 5, []) by decide +kernel] at ht; cases ht; exact c96_cmes
  · rw [show weeklyTable.lookup "IEPA" = some (1990, 2200, 3, 5, []) by decide +kernel] at ht; cases ht; exact c96_iepa
  · rw [show weeklyTable.lookup "XAMS" = some (1990, 2200, 3, 5, []) by decide +kernel] at ht; cases ht; exact c96_xams
  · rw [show weeklyTable.lookup "XASX" = some (1990, 2200, 2, 5, []) by decide +kernel] at ht; cases ht; exact c96_xasx
  · rw [show weeklyTable.lookup "XBKK" = some (1990, 2200, 2, 5, []) by decide +kernel] at ht; cases ht; exact c96_xbkk
  · rw [show weeklyTable.lookup "XBOG" = some (1990, 2200, 2, 5, []) by decide +kernel] at ht; cases ht; exact c96_xbog
  · rw [show weeklyTable.lookup "XBOM" = some (1997, 2020, 2, 5, []) by decide +kernel] at ht; cases ht; exact c96_xbom
  · rw [show weeklyTable.lookup "XBRU" = some (1990, 2200, 3, 5, []) by decide +kernel] at ht; cases ht; exact c96_xbru
  · rw [show weeklyTable.lookup "XBUD" = some (1990, 2200, 1, 5, []) by decide +kernel] at ht; cases ht; exact c96_xbud
  · rw [show weeklyTable.lookup "XBUE" = some (1990, 2200, 0, 5, [⟨2002, 1, 7⟩, ⟨2002, 4, 22⟩]) by decide +kernel] at ht; cases ht; exact c96_xbue
  · rw [show weeklyTable.lookup "XCBF" = some (1990, 2200, 3, 5, []) by decide +kernel] at ht; cases ht; exact c96_xcbf
  · rw [show weeklyTable.lookup "XCSE" = some (1990, 2200, 2, 5, []) by decide +kernel] at ht; cases ht; exact c96_xcse
  · rw [show weeklyTable.lookup "XDUB" = some (1990, 2200, 2, 5, []) by decide +kernel] at ht; cases ht; exact c96_xdub
  · rw [show weeklyTable.lookup "XFRA" = some (1990, 2200, 2, 5, []) by decide +kernel] at ht; cases ht; exact c96_xfra
  · rw [show weeklyTable.lookup "XETR" = some (1990, 2200, 2, 5, []) by decide +kernel] at ht; cases ht; exact c96_xetr
  · rw [show weeklyTable.lookup "XHEL" = some (1990, 2200, 2, 5, []) by decide +kernel] at ht; cases ht; exact c96_xhel
  · rw [show weeklyTable.lookup "XHKG" = some (1990, 2049, 2, 5, []) by decide +kernel] at ht; cases ht; exact c96_xhkg
  · rw [show weeklyTable.lookup "XICE" = some (1990, 2200, 2, 5, []) by decide +kernel] at ht; cases ht; exact c96_xice
  · rw [show weeklyTable.lookup "XIDX" = some (1990, 2200, 0, 5, [⟨2003, 11, 24⟩, ⟨2004, 11, 15⟩, ⟨2006, 10, 23⟩, ⟨2011, 8, 29⟩, ⟨2013, 8, 5⟩, ⟨2014, 7, 28⟩, ⟨2016, 7, 4⟩, ⟨2017, 6, 26⟩, ⟨2018, 6, 11⟩, ⟨2019, 6, 3⟩]) by decide +kernel] at ht; cases ht; exact c96_xidx
  · rw [show weeklyTable.lookup "XIST" = some (1990, 2200, 0, 5, [⟨2003, 2, 10⟩, ⟨2003, 11, 24⟩, ⟨2006, 1, 9⟩, ⟨2029, 4, 23⟩]) by decide +kernel] at ht; cases ht; exact c96_xist
  · rw [show weeklyTable.lookup "XJSE" = some (1990, 2200, 2, 5, []) by decide +kernel] at ht; cases ht; exact c96_xjse
  · rw [show weeklyTable.lookup "XKAR" = some (1990, 2200, 0, 5, [⟨2006, 10, 23⟩]) by decide +kernel] at ht; cases ht; exact c96_xkar
  · rw [show weeklyTable.lookup "XKLS" = some (1990, 2200, 1, 5, []) by decide +kernel] at ht; cases ht; exact c96_xkls
  · rw [show weeklyTable.lookup "XKRX" = some (1986, 2021, 0, 5, [⟨1986, 12, 29⟩, ⟨1987, 12, 28⟩, ⟨1992, 12, 28⟩, ⟨2017, 10, 2⟩]) by decide +kernel] at ht; cases ht; exact c96_xkrx
  · rw [show weeklyTable.lookup "XLIM" = some (1990, 2200, 2, 5, []) by decide +kernel] at ht; cases ht; exact c96_xlim
  · rw [show weeklyTable.lookup "XLIS" = some (1990, 2200, 2, 5, []) by decide +kernel] at ht; cases ht; exact c96_xlis
  · rw [show weeklyTable.lookup "XLON" = some (1990, 2200, 2, 5, []) by decide +kernel] at ht; cases ht; exact c96_xlon
  · rw [show weeklyTable.lookup "XMAD" = some (1990, 2200, 2, 5, []) by decide +kernel] at ht; cases ht; exact c96_xmad
  · rw [show weeklyTable.lookup "XMEX" = some (1990, 2200, 2, 5, []) by decide +kernel] at ht; cases ht; exact c96_xmex
  · rw [show weeklyTable.lookup "XMIL" = some (1990, 2200, 2, 5, []) by decide +kernel] at ht; cases ht; exact c96_xmil
  · rw [show weeklyTable.lookup "XMOS" = some (1990, 2200, 0, 5, [⟨2005, 1, 3⟩, ⟨2006, 1, 2⟩, ⟨2007, 1, 1⟩, ⟨2007, 12, 31⟩, ⟨2009, 1, 5⟩, ⟨2010, 1, 4⟩, ⟨2011, 1, 3⟩, ⟨2012, 12, 31⟩]) by decide +kernel] at ht; cases ht; exact c96_xmos
  · rw [show weeklyTable.lookup "XNYS" = some (1990, 2200, 1, 5, []) by decide +kernel] at ht; cases ht; exact c96_xnys
  · rw [show weeklyTable.lookup "XNZE" = some (1990, 2200, 2, 5, []) by decide +kernel] at ht; cases ht; exact c96_xnze
  · rw [show weeklyTable.lookup "XOSL" = some (1990, 2200, 2, 5, []) by decide +kernel] at ht; cases ht; exact c96_xosl
  · rw [show weeklyTable.lookup "XPAR" = some (1990, 2200, 3, 5, []) by decide +kernel] at ht; cases ht; exact c96_xpar
  · rw [show weeklyTable.lookup "XPHS" = some (1990, 2200, 0, 5, [⟨2008, 12, 29⟩]) by decide +kernel] at ht; cases ht; exact c96_xphs
  · rw [show weeklyTable.lookup "XPRA" = some (1990, 2200, 2, 5, []) by decide +kernel] at ht; cases ht; exact c96_xpra
  · rw [show weeklyTable.lookup "XSES" = some (1986, 2020, 2, 5, []) by decide +kernel] at ht; cases ht; exact c96_xses
  · rw [show weeklyTable.lookup "XSGO" = some (1990, 2200, 2, 5, []) by decide +kernel] at ht; cases ht; exact c96_xsgo
  · rw [show weeklyTable.lookup "XSHG" = some (1999, 2025, 0, 5, [⟨1999, 2, 15⟩, ⟨1999, 2, 22⟩, ⟨2000, 1, 31⟩, ⟨2000, 2, 7⟩, ⟨2000, 5, 1⟩, ⟨2000, 10, 2⟩, ⟨2001, 1, 22⟩, ⟨2001, 1, 29⟩, ⟨2001, 10, 1⟩, ⟨2002, 2, 11⟩, ⟨2002, 2, 18⟩, ⟨2002, 9, 30⟩, ⟨2003, 2, 3⟩, ⟨2003, 5, 5⟩, ⟨2004, 1, 19⟩, ⟨2004, 5, 3⟩, ⟨2005, 2, 7⟩, ⟨2005, 5, 2⟩, ⟨2005, 10, 3⟩, ⟨2006, 1, 30⟩, ⟨2006, 5, 1⟩, ⟨2006, 10, 2⟩, ⟨2007, 2, 19⟩, ⟨2007, 10, 1⟩, ⟨2008, 9, 29⟩, ⟨2009, 1, 26⟩, ⟨2010, 2, 15⟩, ⟨2011, 10, 3⟩, ⟨2012, 1, 23⟩, ⟨2012, 10, 1⟩, ⟨2013, 2, 11⟩, ⟨2016, 2, 8⟩, ⟨2016, 10, 3⟩, ⟨2017, 10, 2⟩, ⟨2018, 10, 1⟩, ⟨2019, 2, 4⟩, ⟨2023, 1, 23⟩]) by decide +kernel] at ht; cases ht; exact c96_xshg
  · rw [show weeklyTable.lookup "XSTO" = some (1990, 2200, 2, 5, []) by decide +kernel] at ht; cases ht; exact c96_xsto
  · rw [show weeklyTable.lookup "XSWX" = some (1990, 2200, 2, 5, []) by decide +kernel] at ht; cases ht; exact c96_xswx
  · rw [show weeklyTable.lookup "XTAE" = some (1990, 2200, 2, 5, []) by decide +kernel] at ht; cases ht; exact c96_xtae
  · rw [show weeklyTable.lookup "XTAI" = some (1990, 2200, 0, 5, [⟨1998, 1, 26⟩, ⟨2001, 1, 22⟩, ⟨2002, 2, 11⟩, ⟨2004, 1, 19⟩, ⟨2005, 2, 7⟩, ⟨2007, 2, 19⟩, ⟨2008, 2, 4⟩, ⟨2009, 1, 26⟩, ⟨2010, 2, 15⟩, ⟨2011, 1, 31⟩, ⟨2012, 1, 23⟩, ⟨2013, 2, 11⟩, ⟨2015, 2, 16⟩, ⟨2016, 2, 8⟩, ⟨2019, 2, 4⟩, ⟨2025, 1, 27⟩, ⟨2028, 1, 24⟩, ⟨2032, 2, 9⟩, ⟨2042, 1, 20⟩]) by decide +kernel] at ht; cases ht; exact c96_xtai
  · rw [show weeklyTable.lookup "XTKS" = some (2000, 2200, 0, 5, [⟨2019, 4, 29⟩]) by decide +kernel] at ht; cases ht; exact c96_xtks
  · rw [show weeklyTable.lookup "XTSE" = some (1990, 2200, 3, 5, []) by decide +kernel] at ht; cases ht; exact c96_xtse
  · rw [show weeklyTable.lookup "XWAR" = some (1990, 2200, 2, 5, []) by decide +kernel] at ht; cases ht; exact c96_xwar
  · rw [show weeklyTable.lookup "XWBO" = some (1990, 2200, 2, 5, []) by decide +kernel] at ht; cases ht; exact c96_xwbo
  · rw [show weeklyTable.lookup "us_futures" = some (2000, 2200, 4, 5, []) by decide +kernel] at ht; cases ht; exact c96_usFuturesCalendar
  · rw [show weeklyTable.lookup "24/7" = some (1990, 2200, 7, 7, []) by decide +kernel] at ht; cases ht; exact c96_24_7
  · rw [show weeklyTable.lookup "24/5" = some (1990, 2200, 5, 5, []) by decide +kernel] at ht; cases ht; exact c96_24_5

/-- C96: every class of the library is in the table. -/
theorem c96_every {name : String} {cls : CalendarClass} (h : (name, cls) ∈ defaultClasses) :
    ∃ y₀ y₁ lo hi empty, weeklyTable.lookup name = some (y₀, y₁, lo, hi, empty) := by
  have hall : (defaultClasses.map Prod.fst).all (fun n => (weeklyTable.lookup n).isSome) = true := by
    decide +kernel
  have := List.all_eq_true.1 hall name (List.mem_map_of_mem (f := Prod.fst) h)
  obtain ⟨⟨y₀, y₁, lo, hi, empty⟩, hx⟩ := Option.isSome_iff_exists.1 this
  exact ⟨y₀, y₁, lo, hi, empty, hx⟩

/-- C96: the sessions of a week in the range of the calendar. -/
theorem c96_week (h : Steady cfg) (hb : build cfg start stop = .ok b) (hmid : DAY ∣ start)
    (hlow : NP_NAT + 3 * DAY ≤ start) (ht : ∀ d, TradingDay cfg d ↔ trades d) {y₀ y₁ : Int} {lo hi : Nat}
    {empty : List Date} (hr : WeeklyRange trades y₀ y₁ lo hi empty) {w : Int} (hw : WeekWithin y₀ y₁ w)
    (ha : start ≤ w * DAY) (hc : (w + 6) * DAY ≤ stop) :
    lo ≤ (b.cal.sessionsInRange (w * DAY) ((w + 6) * DAY)).length ∧
    (b.cal.sessionsInRange (w * DAY) ((w + 6) * DAY)).length ≤ hi ∧
    (b.cal.sessionsInRange (w * DAY) ((w + 6) * DAY) = [] ↔ ∃ x ∈ empty, DayNumber x w) := by
  obtain ⟨hof, hreg, hwm⟩ := gap_regular h hb hmid hlow
  have hlab := gap_labels hb hmid ht
  rw [hof] at hlab ⊢
  have mem : ∀ x, x ∈ (Cal.ofSessions (rowsOf b.cal)).sessionsInRange (w * DAY) ((w + 6) * DAY) ↔
      ∃ d, x = d * DAY ∧ (w ≤ d ∧ d < w + 7) ∧ trades d := by
    intro x
    rw [(c26_sessions_in_range hreg _ _).1, List.mem_filter, decide_eq_true_eq, hlab]
    constructor
    · rintro ⟨⟨d, rfl, -, -, hd⟩, h4, h5⟩
      exact ⟨d, rfl, ⟨by simp only [DAY] at *; omega, by simp only [DAY] at *; omega⟩, hd⟩
    · rintro ⟨d, rfl, ⟨h4, h5⟩, hd⟩
      have b1 : w * DAY ≤ d * DAY := by simp only [DAY]; omega
      have b2 : d * DAY ≤ (w + 6) * DAY := by simp only [DAY]; omega
      exact ⟨⟨d, rfl, by omega, by omega, hd⟩, b1, b2⟩
  obtain ⟨n, ⟨l, hs, hl, rfl⟩, hlo, hhi⟩ := hr.within w hw
  have hlen : (Cal.ofSessions (rowsOf b.cal)).sessionsInRange (w * DAY) ((w + 6) * DAY) = l.map (· * DAY) := by
    have hss : SortedLT ((Cal.ofSessions (rowsOf b.cal)).sessionsInRange (w * DAY) ((w + 6) * DAY)) := by
      rw [(c26_sessions_in_range hreg _ _).1]
      exact hreg.labels_sorted.filter _
    refine sorted_ext hss ?_ fun x => ?_
    · rw [SortedLT, List.pairwise_map]
      exact hs.imp (fun {a b} h => by simp only [DAY]; omega)
    · rw [mem, List.mem_map]
      simp only [hl]
      exact ⟨fun ⟨d, h1, h2⟩ => ⟨d, h2, h1.symm⟩, fun ⟨d, h1, h2⟩ => ⟨d, h2.symm, h1⟩⟩
  refine ⟨by rw [hlen, List.length_map]; exact hlo, by rw [hlen, List.length_map]; exact hhi, ?_⟩
  rw [← hr.closed w hw, List.eq_nil_iff_forall_not_mem]
  simp only [mem]
  exact ⟨fun hno d h1 h2 ht => hno _ ⟨d, rfl, ⟨h1, h2⟩, ht⟩, fun hno x ⟨d, _, hd, ht⟩ => hno d hd.1 hd.2 ht⟩

/-- C96 for calendars of the classes of the library. -/
theorem c96_default {name : String} {cls : CalendarClass} (h : (name, cls) ∈ defaultClasses)
    {lo hi : Nat} {y₀ y₁ : Int} {empty : List Date}
    (ht : weeklyTable.lookup name = some (y₀, y₁, lo, hi, empty))
    (hb : cls.constructFor start stop = .ok b) (hmid : DAY ∣ start) (hlow : NP_NAT + 3 * DAY ≤ start)
    {w : Int} (hw : WeekWithin y₀ y₁ w) (ha : start ≤ w * DAY) (hc : (w + 6) * DAY ≤ stop) :
    lo ≤ (b.cal.sessionsInRange (w * DAY) ((w + 6) * DAY)).length ∧
    (b.cal.sessionsInRange (w * DAY) ((w + 6) * DAY)).length ≤ hi ∧
    (b.cal.sessionsInRange (w * DAY) ((w + 6) * DAY) = [] ↔ ∃ x ∈ empty, DayNumber x w) :=
  c96_week (steady_default h) (constructFor_build hb) hmid hlow (classTrades_iff h) (c96_table h ht) hw ha hc

/-- XTKS for 2019: the week of Monday 29 April, when the emperor abdicated, has no session. -/
example : ∃ b, (CalendarClass.exchange Xtks.exchange Xtks.zone start2000).constructFor (dayOf 2019 1 1 * DAY)
      (dayOf 2019 12 31 * DAY) = .ok b ∧
    b.cal.sessionsInRange (dayOf 2019 4 29 * DAY) ((dayOf 2019 4 29 + 6) * DAY) = [] := by
  have hd : TradesOn Xtks.exchange (dayOf 2019 10 16) := trades_of xtks_check (by decide +kernel)
  obtain ⟨b, hb, -⟩ := (c54_xtks_zone (dayOf 2019 1 1 * DAY) (dayOf 2019 12 31 * DAY) (by decide +kernel)
    (Int.dvd_mul_left _ _)).succeeds (by decide +kernel) ⟨_, by decide +kernel, by decide +kernel, hd⟩
  have hx : DayNumber ⟨2019, 4, 29⟩ (dayOf 2019 4 29) :=
    (dayNumber_iff _ _).2 ⟨by unfold Date.Valid; decide, rfl⟩
  exact ⟨b, hb, (c96_default (name := "XTKS") (cls := .exchange Xtks.exchange Xtks.zone start2000)
    (by simp [defaultClasses])
    (show weeklyTable.lookup "XTKS" = some (2000, 2200, 0, 5, [⟨2019, 4, 29⟩]) by decide +kernel) hb
    (Int.dvd_mul_left _ _) (by decide +kernel)
    ((weekWithin_iff _ _ _).2 ⟨1008, by decide +kernel, by decide +kernel⟩)
    (by decide +kernel) (by decide +kernel)).2.2.2 ⟨_, by simp, hx⟩⟩

/-- C96: XNYS has one session in the week of 10 September 2001, the least of the table. -/
theorem c96_xnys_september : WeekTradingDays (TradesOn Xnys.exchange) (dayOf 2001 9 10) 1 := by
  have := week_count (x := Xnys.exchange) (rules_of_check xnys_check) (by decide +kernel) (w := dayOf 2001 9 10)
    (by decide) (by decide)
  rw [show zerosByWeek weekTable 1 0
    ((Xnys.exchange.closedBits >>> (dayOf 2001 9 10 + 28000).toNat) % 2 ^ 7) = 1 by decide +kernel] at this
  exact this

end TC.Props
