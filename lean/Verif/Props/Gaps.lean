import Verif.Props.Gaps1
import Verif.Props.Gaps2
import Verif.Props.Gaps3
import Verif.Props.Gaps4
import Verif.Props.GapsTelAviv
import Verif.Props.Overlap
import Verif.Props.Combine

/-!
# C84: how long a market stays closed, and how many sessions a year has
-/

namespace TC.Props
open Spec

variable {cfg : Config} {start stop : Int} {b : Built} {trades : Int → Prop} {g : Nat}

theorem gap_labels (hb : build cfg start stop = .ok b) (hm : DAY ∣ start) (ht : ∀ d, TradingDay cfg d ↔ trades d)
    (l : Int) : l ∈ b.cal.sessions ↔ ∃ d, l = d * DAY ∧ start ≤ l ∧ l ≤ stop ∧ trades d := by
  obtain ⟨sch, hsch, hc, -⟩ := build_parts hb
  rw [hc, (schedule_labels hsch hm).2]
  simp only [ht]

theorem gap_regular (h : Steady cfg) (hb : build cfg start stop = .ok b) (hm : DAY ∣ start)
    (hlow : NP_NAT + 3 * DAY ≤ start) :
    b.cal = Cal.ofSessions (rowsOf b.cal) ∧ Regular (rowsOf b.cal) ∧ ∀ s ∈ rowsOf b.cal, s.WholeMinutes := by
  obtain ⟨sch, hsch, hc, -⟩ := build_parts hb
  rw [hc]
  obtain ⟨hreg, -, hw⟩ := schedule_regular hsch h.ordered h.tame hm hlow
  exact ⟨(schedule_rows hsch (h.ordered.wellFormed h.tame hm hlow)).1.symm, hreg, hw h.zoneMinutes h.timeMinutes⟩

/-- C84: `next_session_label` is at most `g + 1` days later if closures last `g` days at most. -/
theorem c84_next (h : Steady cfg) (hb : build cfg start stop = .ok b) (hm : DAY ∣ start)
    (hlow : NP_NAT + 3 * DAY ≤ start) (ht : ∀ d, TradingDay cfg d ↔ trades d) (hg : LongestClosure trades g)
    {l l' : Int} (hl : b.cal.nextSessionLabel l = .ok l') : l < l' ∧ l' ≤ l + (g + 1) * DAY := by
  obtain ⟨hof, hreg, -⟩ := gap_regular h hb hm hlow
  have hlab := gap_labels hb hm ht
  rw [hof] at hl hlab
  have hmem : l ∈ (Cal.ofSessions (rowsOf b.cal)).sessions := by
    apply Classical.byContradiction
    intro hno
    rw [((c30_step hreg).2.2.2 l hno).1] at hl
    cases hl
  obtain ⟨h1, h2, h3⟩ := (c30_nearest hreg l l' hmem).1.1 hl
  obtain ⟨d, rfl, h4, h5, -⟩ := (hlab l).1 hmem
  obtain ⟨d', rfl, h6, h7, -⟩ := (hlab l').1 h1
  refine ⟨h2, ?_⟩
  obtain ⟨e, he1, he2, he3⟩ := hg.atMost (d + 1)
  by_cases hk : d' ≤ e
  · simp only [DAY] at *
    omega
  · have hs : e * DAY ∈ (Cal.ofSessions (rowsOf b.cal)).sessions :=
      (hlab _).2 ⟨e, rfl, by simp only [DAY] at *; omega, by simp only [DAY] at *; omega, he3⟩
    have := h3 _ hs (by simp only [DAY]; omega)
    simp only [DAY] at *
    omega

/-- C84: `previous_session_label` is at most `g + 1` days earlier. -/
theorem c84_previous (h : Steady cfg) (hb : build cfg start stop = .ok b) (hm : DAY ∣ start)
    (hlow : NP_NAT + 3 * DAY ≤ start) (ht : ∀ d, TradingDay cfg d ↔ trades d) (hg : LongestClosure trades g)
    {l l' : Int} (hl : b.cal.previousSessionLabel l = .ok l') : l' < l ∧ l ≤ l' + (g + 1) * DAY := by
  obtain ⟨hof, hreg, -⟩ := gap_regular h hb hm hlow
  have hlab := gap_labels hb hm ht
  rw [hof] at hl hlab
  have hmem : l ∈ (Cal.ofSessions (rowsOf b.cal)).sessions := by
    apply Classical.byContradiction
    intro hno
    rw [((c30_step hreg).2.2.2 l hno).2] at hl
    cases hl
  obtain ⟨h1, h2, h3⟩ := (c30_nearest hreg l l' hmem).2.1 hl
  obtain ⟨d, rfl, h4, h5, -⟩ := (hlab l).1 hmem
  obtain ⟨d', rfl, h6, h7, -⟩ := (hlab l').1 h1
  refine ⟨h2, ?_⟩
  obtain ⟨e, he1, he2, he3⟩ := hg.atMost (d - 1 - g)
  by_cases hk : e ≤ d'
  · simp only [DAY] at *
    omega
  · have hs : e * DAY ∈ (Cal.ofSessions (rowsOf b.cal)).sessions :=
      (hlab _).2 ⟨e, rfl, by simp only [DAY] at *; omega, by simp only [DAY] at *; omega, he3⟩
    have := h3 _ hs (by simp only [DAY]; omega)
    simp only [DAY] at *
    omega

/-- C84: among any `n * (g + 1)` days in the range of the calendar there are `n` sessions at least. -/
theorem c84_at_least (h : Steady cfg) (hb : build cfg start stop = .ok b) (hm : DAY ∣ start)
    (hlow : NP_NAT + 3 * DAY ≤ start) (ht : ∀ d, TradingDay cfg d ↔ trades d) (hg : LongestClosure trades g)
    (n : Nat) {a c : Int} (ha : start ≤ a) (hc : c ≤ stop) (hn : a + (n * (g + 1) : Nat) * DAY ≤ c + 1) :
    n ≤ (b.cal.sessionsInRange a c).length := by
  obtain ⟨hof, hreg, hwm⟩ := gap_regular h hb hm hlow
  have hlab := gap_labels hb hm ht
  rw [hof] at hlab ⊢
  induction n generalizing a with
  | zero => exact Nat.zero_le _
  | succ n ih =>
    have e1 : ((n + 1) * (g + 1) : Nat) = n * (g + 1) + (g + 1) := Nat.succ_mul _ _
    rw [e1] at hn
    generalize hk : n * (g + 1) = k at *
    have hn' : a + ((g : Int) + 1) * DAY + (k : Int) * DAY ≤ c + 1 := by
      simp only [DAY] at *
      omega
    have hsplit := (c82_ranges hreg hwm (a := a) (b := a + ((g : Int) + 1) * DAY - 1) (c := c)
      (by simp only [DAY]; omega) (by simp only [DAY] at *; omega)).1
    have e2 : a + ((g : Int) + 1) * DAY - 1 + 1 = a + ((g : Int) + 1) * DAY := by omega
    rw [hsplit, List.length_append, e2]
    have hrest := ih (a := a + ((g : Int) + 1) * DAY) (by simp only [DAY] at *; omega) hn'
    refine Nat.le_trans (m := 1 + n) (by omega) (Nat.add_le_add ?_ hrest)
    obtain ⟨e, he1, he2, he3⟩ := hg.atMost ((a + DAY - 1) / DAY)
    refine List.length_pos_of_mem (a := e * DAY) ?_
    rw [(c26_sessions_in_range hreg _ _).1, List.mem_filter, decide_eq_true_eq]
    have b1 : a ≤ e * DAY := by simp only [DAY] at *; omega
    have b2 : e * DAY ≤ a + ((g : Int) + 1) * DAY - 1 := by simp only [DAY] at *; omega
    exact ⟨(hlab _).2 ⟨e, rfl, by omega, by simp only [DAY] at *; omega, he3⟩, b1, b2⟩

/-- C84: the number of sessions of a year in the range of the calendar. -/
theorem c84_year (h : Steady cfg) (hb : build cfg start stop = .ok b) (hm : DAY ∣ start)
    (hlow : NP_NAT + 3 * DAY ≤ start) (ht : ∀ d, TradingDay cfg d ↔ trades d) {y₀ y₁ : Int} {lo hi : Nat}
    (hy : YearlyRange trades y₀ y₁ lo hi) {y d₀ d₁ : Int} (h0 : y₀ ≤ y) (h1 : y ≤ y₁)
    (hd₀ : DayNumber ⟨y, 1, 1⟩ d₀) (hd₁ : DayNumber ⟨y, 12, 31⟩ d₁) (ha : start ≤ d₀ * DAY) (hc : d₁ * DAY ≤ stop) :
    lo ≤ (b.cal.sessionsInRange (d₀ * DAY) (d₁ * DAY)).length ∧
    (b.cal.sessionsInRange (d₀ * DAY) (d₁ * DAY)).length ≤ hi := by
  obtain ⟨hof, hreg, hwm⟩ := gap_regular h hb hm hlow
  have hlab := gap_labels hb hm ht
  rw [hof] at hlab ⊢
  obtain ⟨n, ⟨l, hs, hl, rfl⟩, hlo, hhi⟩ := hy.within y h0 h1
  have e0 : d₀ = jan1 y := (dayNumber_jan1 _ _).1 hd₀
  have e1 : d₁ = jan1 (y + 1) - 1 := (dayNumber_dec31 _ _).1 hd₁
  have hlen : (Cal.ofSessions (rowsOf b.cal)).sessionsInRange (d₀ * DAY) (d₁ * DAY) = l.map (· * DAY) := by
    have hss : SortedLT ((Cal.ofSessions (rowsOf b.cal)).sessionsInRange (d₀ * DAY) (d₁ * DAY)) := by
      rw [(c26_sessions_in_range hreg _ _).1]
      exact hreg.labels_sorted.filter _
    refine sorted_ext hss ?_ fun x => ?_
    · rw [SortedLT, List.pairwise_map]
      exact hs.imp (fun {a b} h => by simp only [DAY]; omega)
    · rw [(c26_sessions_in_range hreg _ _).1, List.mem_filter, decide_eq_true_eq, hlab, List.mem_map]
      simp only [hl, inYear_jan1]
      constructor
      · rintro ⟨⟨d, rfl, -, -, hd⟩, h4, h5⟩
        exact ⟨d, ⟨by simp only [DAY] at *; omega, hd⟩, rfl⟩
      · rintro ⟨d, ⟨h4, hd⟩, rfl⟩
        have b1 : d₀ * DAY ≤ d * DAY := by simp only [DAY]; omega
        have b2 : d * DAY ≤ d₁ * DAY := by simp only [DAY]; omega
        exact ⟨⟨d, rfl, by omega, by omega, hd⟩, b1, b2⟩
  rw [hlen, List.length_map]
  exact ⟨hlo, hhi⟩

theorem classTrades_iff {name : String} {cls : CalendarClass} (h : (name, cls) ∈ defaultClasses) (d : Int) :
    TradingDay (classConfig cls) d ↔ ClassTrades cls d := by
  simp only [defaultClasses, List.mem_cons, List.not_mem_nil, or_false, Prod.mk.injEq] at h
  rcases h with ⟨rfl, rfl⟩ | ⟨rfl, rfl⟩ | ⟨rfl, rfl⟩ | ⟨rfl, rfl⟩ | ⟨rfl, rfl⟩ | ⟨rfl, rfl⟩ | ⟨rfl, rfl⟩ | ⟨rfl, rfl⟩ | ⟨rfl, rfl⟩ | ⟨rfl, rfl⟩ | ⟨rfl, rfl⟩ | ⟨rfl, rfl⟩ | ⟨rfl, rfl⟩ | ⟨rfl, rfl⟩ | ⟨rfl, rfl⟩ | ⟨rfl, rfl⟩ | ⟨rfl, rfl⟩ | ⟨rfl, rfl⟩ | ⟨rfl, rfl⟩ | ⟨rfl, rfl⟩ | ⟨rfl, rfl⟩ | ⟨rfl, rfl⟩ | ⟨rfl, rfl⟩ | ⟨rfl, rfl⟩ | ⟨rfl, rfl⟩ | ⟨rfl, rfl⟩ | ⟨rfl, rfl⟩ | ⟨rfl, rfl⟩ | ⟨rfl, rfl⟩ | ⟨rfl, rfl⟩ | ⟨rfl, rfl⟩ | ⟨rfl, rfl⟩ | ⟨rfl, rfl⟩ | ⟨rfl, rfl⟩ | ⟨rfl, rfl⟩ | ⟨rfl, rfl⟩ | ⟨rfl, rfl⟩ | ⟨rfl, rfl⟩ | ⟨rfl, rfl⟩ | ⟨rfl, rfl⟩ | ⟨rfl, rfl⟩ | ⟨rfl, rfl⟩ | ⟨rfl, rfl⟩ | ⟨rfl, rfl⟩ | ⟨rfl, rfl⟩ | ⟨rfl, rfl⟩ | ⟨rfl, rfl⟩ | ⟨rfl, rfl⟩ | ⟨rfl, rfl⟩ | ⟨rfl, rfl⟩ | ⟨rfl, rfl⟩ | ⟨rfl, rfl⟩ | ⟨rfl, rfl⟩
  · exact tradingDay_iff (rules_of_check asex_check) _ d
  · exact tradingDay_iff (rules_of_check bvmf_check) _ d
  · exact tradingDay_iff (rules_of_check cmes_check) _ d
  · exact tradingDay_iff (rules_of_check iepa_check) _ d
  · exact tradingDay_iff (rules_of_check xams_check) _ d
  · exact tradingDay_iff (rules_of_check xasx_check) _ d
  · exact tradingDay_iff (rules_of_check xbkk_check) _ d
  · exact tradingDay_iff (rules_of_check xbog_check) _ d
  · exact tradingDay_iff (rules_of_check xbom_check) _ d
  · exact tradingDay_iff (rules_of_check xbru_check) _ d
  · exact tradingDay_iff (rules_of_check xbud_check) _ d
  · exact tradingDay_iff (rules_of_check xbue_check) _ d
  · exact tradingDay_iff (rules_of_check xcbf_check) _ d
  · exact tradingDay_iff (rules_of_check xcse_check) _ d
  · exact tradingDay_iff (rules_of_check xdub_check) _ d
  · exact tradingDay_iff (rules_of_check xfra_check) _ d
  · exact tradingDay_iff (rules_of_check xetr_check) _ d
  · exact tradingDay_iff (rules_of_check xhel_check) _ d
  · exact tradingDay_iff (rules_of_check xhkg_check) _ d
  · exact tradingDay_iff (rules_of_check xice_check) _ d
  · exact tradingDay_iff (rules_of_check xidx_check) _ d
  · exact tradingDay_iff (rules_of_check xist_check) _ d
  · exact tradingDay_iff (rules_of_check xjse_check) _ d
  · exact tradingDay_iff (rules_of_check xkar_check) _ d
  · exact tradingDay_iff (rules_of_check xkls_check) _ d
  · exact tradingDay_iff (rules_of_check xkrx_check) _ d
  · exact tradingDay_iff (rules_of_check xlim_check) _ d
  · exact tradingDay_iff (rules_of_check xlis_check) _ d
  · exact tradingDay_iff (rules_of_check xlon_check) _ d
  · exact tradingDay_iff (rules_of_check xmad_check) _ d
  · exact tradingDay_iff (rules_of_check xmex_check) _ d
  · exact tradingDay_iff (rules_of_check xmil_check) _ d
  · exact tradingDay_iff (rules_of_check xmos_check) _ d
  · exact tradingDay_iff (rules_of_check xnys_check) _ d
  · exact tradingDay_iff (rules_of_check xnze_check) _ d
  · exact tradingDay_iff (rules_of_check xosl_check) _ d
  · exact tradingDay_iff (rules_of_check xpar_check) _ d
  · exact tradingDay_iff (rules_of_check xphs_check) _ d
  · exact tradingDay_iff (rules_of_check xpra_check) _ d
  · exact tradingDay_iff (rules_of_check xses_check) _ d
  · exact tradingDay_iff (rules_of_check xsgo_check) _ d
  · exact tradingDay_iff (rules_of_check xshg_check) _ d
  · exact tradingDay_iff (rules_of_check xsto_check) _ d
  · exact tradingDay_iff (rules_of_check xswx_check) _ d
  · exact tradingDay_iff xtae_good _ d
  · exact tradingDay_iff (rules_of_check xtai_check) _ d
  · exact tradingDay_iff (rules_of_check xtks_check) _ d
  · exact tradingDay_iff (rules_of_check xtse_check) _ d
  · exact tradingDay_iff (rules_of_check xwar_check) _ d
  · exact tradingDay_iff (rules_of_check xwbo_check) _ d
  · exact tradingDay_iff (rules_of_check usFuturesCalendar_check) _ d
  · exact ⟨fun h => h.1, fun h => ⟨h, nofun, nofun⟩⟩
  · exact ⟨fun h => h.1, fun h => ⟨h, nofun, nofun⟩⟩

/-- Monday to Friday without holidays. -/
def weekdaysOnly : Exchange := { openTimes := [], closeTimes := [] }

theorem weekdaysOnly_trades : ClassTrades (.simple weekdayCalendar) = TradesOn weekdaysOnly := by
  funext d
  refine propext ?_
  unfold ClassTrades TradesOn weekdaysOnly
  simp only [List.not_mem_nil, not_false_eq_true, false_implies, implies_true, and_true, weekdayCalendar]
  constructor
  · rintro ⟨w, h1, h2⟩
    have hw := (weekday_iff _ _).1 h1
    unfold weekday at hw
    have h3 : w < 5 := by simpa using h2
    exact ⟨w, by simp only [List.mem_cons, List.not_mem_nil, or_false]; omega, h1⟩
  · rintro ⟨w, h1, h2⟩
    simp only [List.mem_cons, List.not_mem_nil, or_false] at h1
    exact ⟨w, h2, decide_eq_true (by omega)⟩

/-- C84 for the calendar of the name "24/5". -/
theorem c84_24_5 : LongestClosure (ClassTrades (.simple weekdayCalendar)) 2 ∧
    YearlyRange (ClassTrades (.simple weekdayCalendar)) 1990 2200 260 262 := by
  rw [weekdaysOnly_trades]
  exact stats_of (g := 1) (k := 211) ⟨by simp [weekdaysOnly], by simp [weekdaysOnly]⟩ (by decide +kernel)
    (by decide) (by decide) (by decide +kernel)

/-- C84 for the calendar of the name "24/7". -/
theorem c84_24_7 : LongestClosure (ClassTrades (.simple alwaysOpen)) 0 ∧
    YearlyRange (ClassTrades (.simple alwaysOpen)) 1990 2200 365 366 := by
  have all : ∀ d, ClassTrades (.simple alwaysOpen) d := fun d =>
    ⟨weekday d, (weekday_iff _ _).2 rfl, by simp [alwaysOpen]⟩
  have count : ∀ y, TradingDays (ClassTrades (.simple alwaysOpen)) y (if isLeap y then 366 else 365) := by
    intro y
    refine ⟨dayRange (jan1 y) (jan1 (y + 1) - 1), ?_, fun d => ?_, ?_⟩
    · unfold dayRange
      rw [List.pairwise_map]
      exact List.pairwise_lt_range.imp (fun {a b} h => by omega)
    · rw [mem_dayRange, inYear_jan1]
      exact ⟨fun h => ⟨by omega, all d⟩, fun h => by omega⟩
    · have := jan1_succ y
      unfold dayRange
      rw [List.length_map, List.length_range]
      split at this <;> rename_i hl <;> simp only [hl, if_true, if_false, Bool.false_eq_true] <;> omega
  refine ⟨⟨fun d => ⟨d, by omega, by omega, all d⟩, 0, fun e h1 h2 => by omega⟩, ⟨fun y _ _ => ⟨_, count y, ?_⟩,
    ⟨1990, by decide, by decide, count 1990⟩, 1992, by decide, by decide, count 1992⟩⟩
  split <;> decide

/-- C84: the table of closures for the classes of the library. -/
theorem c84_table {name : String} {cls : CalendarClass} (h : (name, cls) ∈ defaultClasses)
    {g lo hi : Nat} {y₀ y₁ : Int} (ht : closureTable.lookup name = some (g, y₀, y₁, lo, hi)) :
    LongestClosure (ClassTrades cls) g ∧ YearlyRange (ClassTrades cls) y₀ y₁ lo hi := by
  simp only [defaultClasses, List.mem_cons, List.not_mem_nil, or_false, Prod.mk.injEq] at h
  rcases h with ⟨rfl, rfl⟩ | ⟨rfl, rfl⟩ | ⟨rfl, rfl⟩ | ⟨rfl, rfl⟩ | ⟨rfl, rfl⟩ | ⟨rfl, rfl⟩ | ⟨rfl, rfl⟩ | ⟨rfl, rfl⟩ | ⟨rfl, rfl⟩ | ⟨rfl, rfl⟩ | ⟨rfl, rfl⟩ | ⟨rfl, rfl⟩ | ⟨rfl, rfl⟩ | ⟨rfl, rfl⟩ | ⟨rfl, rfl⟩ | ⟨rfl, rfl⟩ | ⟨rfl, rfl⟩ | ⟨rfl, rfl⟩ | ⟨rfl, rfl⟩ | ⟨rfl, rfl⟩ | ⟨rfl, rfl⟩ | ⟨rfl, rfl⟩ | ⟨rfl, rfl⟩ | ⟨rfl, rfl⟩ | ⟨rfl, rfl⟩ | ⟨rfl, rfl⟩ | ⟨rfl, rfl⟩ | ⟨rfl, rfl⟩ | ⟨rfl, rfl⟩ | ⟨rfl, rfl⟩ | ⟨rfl, rfl⟩ | ⟨rfl, rfl⟩ | ⟨rfl, rfl⟩ | ⟨rfl, rfl⟩ | ⟨rfl, rfl⟩ | ⟨rfl, rfl⟩ | ⟨rfl, rfl⟩ | ⟨rfl, rfl⟩ | ⟨rfl, rfl⟩ | ⟨rfl, rfl⟩ | ⟨rfl, rfl⟩ | ⟨rfl, rfl⟩ | ⟨rfl, rfl⟩ | ⟨rfl, rfl⟩ | ⟨rfl, rfl⟩ | ⟨rfl, rfl⟩ | ⟨rfl, rfl⟩ | ⟨rfl, rfl⟩ | ⟨rfl, rfl⟩ | ⟨rfl, rfl⟩ | ⟨rfl, rfl⟩ | ⟨rfl, rfl⟩ | ⟨rfl, rfl⟩
  · rw [show closureTable.lookup "ASEX" = some (37, 1990, 2200, 223, 255) by decide +kernel] at ht; cases ht; exact c84_asex
  · rw [show closureTable.lookup "BVMF" = some (4, 1990, 2200, 245, 251) by decide +kernel] at ht; cases ht; exact c84_bvmf
  · rw [show closureTable.lookup "CMES" = some (4, 1990, 2200, 257, 259) by decide +kernel] at ht; cases ht; exact c84_cmes
  · rw [show closureTable.lookup "IEPA" = some (4, 1990, 2200, 257, 259) by decide +kernel] at ht; cases ht; exact c84_iepa
  · rw [show closureTable.lookup "XAMS" = some (4, 1990, 2200, 251, 259) by decide +kernel] at ht; cases ht; exact c84_xams
  · rw [show closureTable.lookup "XASX" = some (5, 1990, 2200, 252, 255) by decide +kernel] at ht; cases ht; exact c84_xasx
  · rw [show closureTable.lookup "XBKK" = some (5, 1990, 2200, 242, 249) by decide +kernel] at ht; cases ht; exact c84_xbkk
  · rw [show closureTable.lookup "XBOG" = some (5, 1990, 2200, 242, 246) by decide +kernel] at ht; cases ht; exact c84_xbog
  · rw [show closureTable.lookup "XBOM" = some (5, 1997, 2020, 242, 257) by decide +kernel] at ht; cases ht; exact c84_xbom
  · rw [show closureTable.lookup "XBRU" = some (4, 1990, 2200, 251, 259) by decide +kernel] at ht; cases ht; exact c84_xbru
  · rw [show closureTable.lookup "XBUD" = some (6, 1990, 2200, 244, 254) by decide +kernel] at ht; cases ht; exact c84_xbud
  · rw [show closureTable.lookup "XBUE" = some (12, 1990, 2200, 237, 253) by decide +kernel] at ht; cases ht; exact c84_xbue
  · rw [show closureTable.lookup "XCBF" = some (4, 1990, 2200, 250, 255) by decide +kernel] at ht; cases ht; exact c84_xcbf
  · rw [show closureTable.lookup "XCSE" = some (5, 1990, 2200, 248, 253) by decide +kernel] at ht; cases ht; exact c84_xcse
  · rw [show closureTable.lookup "XDUB" = some (5, 1990, 2200, 252, 256) by decide +kernel] at ht; cases ht; exact c84_xdub
  · rw [show closureTable.lookup "XFRA" = some (5, 1990, 2200, 251, 257) by decide +kernel] at ht; cases ht; exact c84_xfra
  · rw [show closureTable.lookup "XETR" = some (5, 1990, 2200, 251, 257) by decide +kernel] at ht; cases ht; exact c84_xetr
  · rw [show closureTable.lookup "XHEL" = some (5, 1990, 2200, 250, 253) by decide +kernel] at ht; cases ht; exact c84_xhel
  · rw [show closureTable.lookup "XHKG" = some (6, 1990, 2049, 243, 249) by decide +kernel] at ht; cases ht; exact c84_xhkg
  · rw [show closureTable.lookup "XICE" = some (5, 1990, 2200, 247, 252) by decide +kernel] at ht; cases ht; exact c84_xice
  · rw [show closureTable.lookup "XIDX" = some (11, 1990, 2200, 238, 257) by decide +kernel] at ht; cases ht; exact c84_xidx
  · rw [show closureTable.lookup "XIST" = some (10, 1990, 2200, 246, 257) by decide +kernel] at ht; cases ht; exact c84_xist
  · rw [show closureTable.lookup "XJSE" = some (5, 1990, 2200, 248, 252) by decide +kernel] at ht; cases ht; exact c84_xjse
  · rw [show closureTable.lookup "XKAR" = some (10, 1990, 2200, 241, 260) by decide +kernel] at ht; cases ht; exact c84_xkar
  · rw [show closureTable.lookup "XKLS" = some (6, 1990, 2200, 243, 258) by decide +kernel] at ht; cases ht; exact c84_xkls
  · rw [show closureTable.lookup "XKRX" = some (10, 1986, 2021, 241, 253) by decide +kernel] at ht; cases ht; exact c84_xkrx
  · rw [show closureTable.lookup "XLIM" = some (5, 1990, 2200, 248, 253) by decide +kernel] at ht; cases ht; exact c84_xlim
  · rw [show closureTable.lookup "XLIS" = some (5, 1990, 2200, 246, 259) by decide +kernel] at ht; cases ht; exact c84_xlis
  · rw [show closureTable.lookup "XLON" = some (4, 1990, 2200, 251, 254) by decide +kernel] at ht; cases ht; exact c84_xlon
  · rw [show closureTable.lookup "XMAD" = some (5, 1990, 2200, 249, 259) by decide +kernel] at ht; cases ht; exact c84_xmad
  · rw [show closureTable.lookup "XMEX" = some (4, 1990, 2200, 251, 257) by decide +kernel] at ht; cases ht; exact c84_xmex
  · rw [show closureTable.lookup "XMIL" = some (5, 1990, 2200, 252, 257) by decide +kernel] at ht; cases ht; exact c84_xmil
  · rw [show closureTable.lookup "XMOS" = some (11, 1990, 2200, 244, 253) by decide +kernel] at ht; cases ht; exact c84_xmos
  · rw [show closureTable.lookup "XNYS" = some (11, 1990, 2200, 248, 254) by decide +kernel] at ht; cases ht; exact c84_xnys
  · rw [show closureTable.lookup "XNZE" = some (16, 1990, 2200, 249, 253) by decide +kernel] at ht; cases ht; exact c84_xnze
  · rw [show closureTable.lookup "XOSL" = some (5, 1990, 2200, 249, 254) by decide +kernel] at ht; cases ht; exact c84_xosl
  · rw [show closureTable.lookup "XPAR" = some (4, 1990, 2200, 252, 259) by decide +kernel] at ht; cases ht; exact c84_xpar
  · rw [show closureTable.lookup "XPHS" = some (11, 1990, 2200, 240, 261) by decide +kernel] at ht; cases ht; exact c84_xphs
  · rw [show closureTable.lookup "XPRA" = some (5, 1990, 2200, 249, 253) by decide +kernel] at ht; cases ht; exact c84_xpra
  · rw [show closureTable.lookup "XSES" = some (5, 1986, 2020, 248, 254) by decide +kernel] at ht; cases ht; exact c84_xses
  · rw [show closureTable.lookup "XSGO" = some (5, 1990, 2200, 245, 253) by decide +kernel] at ht; cases ht; exact c84_xsgo
  · rw [show closureTable.lookup "XSHG" = some (19, 1999, 2025, 237, 251) by decide +kernel] at ht; cases ht; exact c84_xshg
  · rw [show closureTable.lookup "XSTO" = some (5, 1990, 2200, 249, 254) by decide +kernel] at ht; cases ht; exact c84_xsto
  · rw [show closureTable.lookup "XSWX" = some (5, 1990, 2200, 249, 254) by decide +kernel] at ht; cases ht; exact c84_xswx
  · rw [show closureTable.lookup "XTAE" = some (5, 1990, 2200, 244, 250) by decide +kernel] at ht; cases ht; exact c84_xtae
  · rw [show closureTable.lookup "XTAI" = some (11, 1990, 2200, 241, 257) by decide +kernel] at ht; cases ht; exact c84_xtai
  · rw [show closureTable.lookup "XTKS" = some (10, 2000, 2200, 241, 249) by decide +kernel] at ht; cases ht; exact c84_xtks
  · rw [show closureTable.lookup "XTSE" = some (4, 1990, 2200, 250, 253) by decide +kernel] at ht; cases ht; exact c84_xtse
  · rw [show closureTable.lookup "XWAR" = some (5, 1990, 2200, 247, 255) by decide +kernel] at ht; cases ht; exact c84_xwar
  · rw [show closureTable.lookup "XWBO" = some (5, 1990, 2200, 246, 255) by decide +kernel] at ht; cases ht; exact c84_xwbo
  · rw [show closureTable.lookup "us_futures" = some (3, 2000, 2200, 257, 259) by decide +kernel] at ht; cases ht; exact c84_usFuturesCalendar
  · rw [show closureTable.lookup "24/7" = some (0, 1990, 2200, 365, 366) by decide +kernel] at ht; cases ht; exact c84_24_7
  · rw [show closureTable.lookup "24/5" = some (2, 1990, 2200, 260, 262) by decide +kernel] at ht; cases ht; exact c84_24_5

/-- C84: every class of the library is in the table. -/
theorem c84_every {name : String} {cls : CalendarClass} (h : (name, cls) ∈ defaultClasses) :
    ∃ g y₀ y₁ lo hi, closureTable.lookup name = some (g, y₀, y₁, lo, hi) := by
  have hall : (defaultClasses.map Prod.fst).all (fun n => (closureTable.lookup n).isSome) = true := by
    decide +kernel
  have := List.all_eq_true.1 hall name (List.mem_map_of_mem (f := Prod.fst) h)
  obtain ⟨⟨g, y₀, y₁, lo, hi⟩, hx⟩ := Option.isSome_iff_exists.1 this
  exact ⟨g, y₀, y₁, lo, hi, hx⟩

/-- C84 for calendars of the classes of the library: how far apart neighbouring sessions are, how many sessions
a span of days has at least, and how many a year has. -/
theorem c84_default {name : String} {cls : CalendarClass} (h : (name, cls) ∈ defaultClasses)
    {lo hi : Nat} {y₀ y₁ : Int} (ht : closureTable.lookup name = some (g, y₀, y₁, lo, hi))
    (hb : cls.constructFor start stop = .ok b) (hmid : DAY ∣ start) (hlow : NP_NAT + 3 * DAY ≤ start) :
    (∀ l l', b.cal.nextSessionLabel l = .ok l' → l < l' ∧ l' ≤ l + (g + 1) * DAY) ∧
    (∀ l l', b.cal.previousSessionLabel l = .ok l' → l' < l ∧ l ≤ l' + (g + 1) * DAY) ∧
    (∀ (n : Nat) a c, start ≤ a → c ≤ stop → a + (n * (g + 1) : Nat) * DAY ≤ c + 1 →
      n ≤ (b.cal.sessionsInRange a c).length) ∧
    ∀ y d₀ d₁, y₀ ≤ y → y ≤ y₁ → DayNumber ⟨y, 1, 1⟩ d₀ → DayNumber ⟨y, 12, 31⟩ d₁ →
      start ≤ d₀ * DAY → d₁ * DAY ≤ stop →
      lo ≤ (b.cal.sessionsInRange (d₀ * DAY) (d₁ * DAY)).length ∧
      (b.cal.sessionsInRange (d₀ * DAY) (d₁ * DAY)).length ≤ hi := by
  obtain ⟨hg, hy⟩ := c84_table h ht
  have hs := steady_default h
  have hb' := constructFor_build hb
  have htr := classTrades_iff h
  exact ⟨fun l l' hl => c84_next hs hb' hmid hlow htr hg hl,
    fun l l' hl => c84_previous hs hb' hmid hlow htr hg hl,
    fun n a c h1 h2 h3 => c84_at_least hs hb' hmid hlow htr hg n h1 h2 h3,
    fun y d₀ d₁ h1 h2 h3 h4 h5 h6 => c84_year hs hb' hmid hlow htr hy h1 h2 h3 h4 h5 h6⟩

/-- XNYS for 2019: the year has between 248 and 254 sessions, and of any twelve days in it one is a session. -/
example : ∃ b, (CalendarClass.exchange Xnys.exchange Xnys.zone startDefault).constructFor (dayOf 2019 1 1 * DAY)
      (dayOf 2019 12 31 * DAY) = .ok b ∧
    248 ≤ (b.cal.sessionsInRange (dayOf 2019 1 1 * DAY) (dayOf 2019 12 31 * DAY)).length ∧
    (b.cal.sessionsInRange (dayOf 2019 1 1 * DAY) (dayOf 2019 12 31 * DAY)).length ≤ 254 ∧
    30 ≤ (b.cal.sessionsInRange (dayOf 2019 1 1 * DAY) (dayOf 2019 12 31 * DAY)).length := by
  have hd : TradesOn Xnys.exchange (dayOf 2019 10 16) := trades_of xnys_check (by decide +kernel)
  obtain ⟨b, hb, -⟩ := (c54_xnys_zone (dayOf 2019 1 1 * DAY) (dayOf 2019 12 31 * DAY) (by decide +kernel)
    (Int.dvd_mul_left _ _)).succeeds (by decide +kernel) ⟨_, by decide +kernel, by decide +kernel, hd⟩
  obtain ⟨-, -, h1, h2⟩ := c84_default (name := "XNYS") (cls := .exchange Xnys.exchange Xnys.zone startDefault)
    (by simp [defaultClasses]) (show closureTable.lookup "XNYS" = some (11, 1990, 2200, 248, 254) by decide +kernel) hb
    (Int.dvd_mul_left _ _) (by decide +kernel)
  have h3 := h2 2019 (dayOf 2019 1 1) (dayOf 2019 12 31) (by decide) (by decide)
    ((dayNumber_jan1 _ _).2 (by decide +kernel)) ((dayNumber_dec31 _ _).2 (by decide +kernel)) (Int.le_refl _) (Int.le_refl _)
  have h4 := h1 30 (dayOf 2019 1 1 * DAY) (dayOf 2019 12 31 * DAY) (Int.le_refl _) (Int.le_refl _) (by decide +kernel)
  exact ⟨b, hb, h3.1, h3.2, h4⟩

end TC.Props
