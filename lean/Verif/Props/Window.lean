import Verif.Props.Overlap
import Verif.Lemmas.Feasts
import Verif.Model.Window
import Verif.Spec.Window

/-!
# Property C83: the window of holiday calendars

`CustomBusinessDay` expands a holiday calendar over a window fixed by pandas.  Within it the window does not show;
outside it regular holidays are unknown.
-/

namespace TC.Props
open Spec

variable {cfg : Config} {start stop w₀ w₁ v₀ v₁ : Int} {b : Built}

theorem dateRange_congr {bus bus' : Int → Bool}
    (h : ∀ d, start < (d + 1) * DAY → d * DAY ≤ stop → bus d = bus' d) :
    dateRange bus start stop = dateRange bus' start stop := by
  obtain ⟨s1, m1⟩ := dateRange_any bus start stop
  obtain ⟨s2, m2⟩ := dateRange_any bus' start stop
  refine sorted_ext s1 s2 fun l => ?_
  rw [m1, m2]
  refine exists_congr fun k => and_congr_right fun hl => and_congr_right fun h1 => and_congr_right fun h2 => ?_
  have e0 := h k (by simp only [DAY] at *; omega) (by simp only [DAY] at *; omega)
  have e1 := h (start / DAY) (by simp only [DAY] at *; omega) (by simp only [DAY] at *; omega)
  have e2 := h (stop / DAY) (by simp only [DAY] at *; omega) (by simp only [DAY] at *; omega)
  rw [e0, e1, e2]
  refine and_congr_right fun _ => forall_congr' fun _ => forall_congr' fun _ => forall_congr' fun _ =>
    exists_congr fun k' => and_congr_right fun h3 => and_congr_right fun h4 => ?_
  rw [h k' (by simp only [DAY] at *; omega) (by simp only [DAY] at *; omega)]

theorem build_congr_days {cfg cfg' : Config} (hc : cfg' = { cfg with regularHolidays := cfg'.regularHolidays })
    (h : ∀ d, start < (d + 1) * DAY → d * DAY ≤ stop → cfg.isBusinessDay d = cfg'.isBusinessDay d) :
    build cfg start stop = build cfg' start stop := by
  have e := dateRange_congr h
  unfold build buildSchedule
  rw [e, hc]

theorem within_iff {d : Int} : TradingDay (cfg.within w₀ w₁) d ↔
    (∃ w, IsWeekday d w ∧ cfg.weekmask w = true) ∧ (∀ h ∈ cfg.adhocHolidays, h / DAY ≠ d) ∧
    ∀ cal, cfg.regularHolidays = some cal → ∀ h ∈ cal w₀ w₁, h / DAY ≠ d := by
  unfold TradingDay Config.within
  refine and_congr_right fun _ => and_congr_right fun _ => ?_
  simp only [Option.map_eq_some_iff]
  constructor
  · intro h cal hc l hl
    exact h _ ⟨cal, hc, rfl⟩ l hl
  · rintro h _ ⟨cal, hc, rfl⟩ l hl
    exact h cal hc l hl

theorem window_day (h : OneCalendar cfg) {d : Int} (hw : w₀ ≤ d * DAY ∧ d * DAY ≤ w₁)
    (hv : v₀ ≤ d * DAY ∧ d * DAY ≤ v₁) : TradingDay (cfg.within w₀ w₁) d ↔ TradingDay (cfg.within v₀ v₁) d := by
  rw [within_iff, within_iff]
  refine and_congr_right fun _ => and_congr_right fun _ => forall_congr' fun cal => forall_congr' fun hc => ?_
  obtain ⟨P, hP, hcal⟩ := h cal hc
  simp only [hcal]
  constructor
  · rintro h l ⟨hl, -⟩ rfl
    obtain ⟨q, rfl⟩ := hP l hl
    rw [Int.mul_ediv_cancel_left _ (by decide), Int.mul_comm] at hw
    exact h _ ⟨hl, hw⟩ rfl
  · rintro h l ⟨hl, -⟩ rfl
    obtain ⟨q, rfl⟩ := hP l hl
    rw [Int.mul_ediv_cancel_left _ (by decide), Int.mul_comm q] at hv
    exact h _ ⟨hl, hv⟩ rfl

theorem window_build (h : OneCalendar cfg) (hw : WindowCovers w₀ w₁ start stop)
    (hv : WindowCovers v₀ v₁ start stop) :
    build (cfg.within w₀ w₁) start stop = build (cfg.within v₀ v₁) start stop :=
  build_congr_days rfl fun d h1 h2 =>
    Bool.eq_iff_iff.2 (by rw [isBusinessDay_iff, isBusinessDay_iff]; exact window_day h (hw d h1 h2) (hv d h1 h2))

/-- C83: two releases of pandas whose windows cover the range construct the same calendar, or fail alike. -/
theorem c83_window (h : OneCalendar cfg) (hw : WindowCovers w₀ w₁ start stop)
    (hv : WindowCovers v₀ v₁ start stop) :
    build (cfg.within w₀ w₁) start stop = build (cfg.within v₀ v₁) start stop := window_build h hw hv

/-- C83: so the window makes no difference to any range that the model's one, 1970 to 2200, covers as well. -/
theorem c83_model (h : OneCalendar cfg) (hw : WindowCovers w₀ w₁ start stop)
    (hv : WindowCovers 0 (84370 * DAY) start stop) :
    build (cfg.within w₀ w₁) start stop = build cfg start stop := by
  rw [window_build h hw hv]
  refine build_congr_days rfl fun d _ _ => Bool.eq_iff_iff.2 ?_
  rw [isBusinessDay_iff, isBusinessDay_iff, within_iff]
  rfl

/-- C83 (finding): outside the window of pandas no day is a regular holiday. -/
theorem c83_outside (h : OneCalendar cfg) {d : Int} (hd : d * DAY < w₀ ∨ w₁ < d * DAY) :
    TradingDay (cfg.within w₀ w₁) d ↔
      (∃ w, IsWeekday d w ∧ cfg.weekmask w = true) ∧ ∀ h ∈ cfg.adhocHolidays, h / DAY ≠ d := by
  rw [within_iff, ← and_assoc]
  refine and_iff_left fun cal hc l hl e => ?_
  obtain ⟨P, hP, hcal⟩ := h cal hc
  obtain ⟨hl, h1, h2⟩ := (hcal _ _ _).1 hl
  obtain ⟨q, rfl⟩ := hP l hl
  rw [Int.mul_ediv_cancel_left _ (by decide)] at e
  subst e
  rw [Int.mul_comm] at h1 h2
  omega

theorem oneCalendar_exchange {x : Exchange} {z : Tz} (h : GoodRules x.regular) : OneCalendar (x.config z) := by
  intro cal hc
  simp only [Exchange.config, Option.some.injEq] at hc
  subst hc
  refine ⟨fun l => ∃ r ∈ x.regular, ∃ d, l = d * DAY ∧ IsHoliday r d, ?_, fun s e l => ?_⟩
  · rintro l ⟨r, -, d, rfl, -⟩
    exact Int.dvd_mul_left _ _
  · rw [mem_holidayCalendar h.1 h.2]
    exact ⟨fun ⟨a, b, c⟩ => ⟨c, a, b⟩, fun ⟨c, a, b⟩ => ⟨a, b, c⟩⟩

theorem oneCalendar_default {name : String} {cls : CalendarClass} (h : (name, cls) ∈ defaultClasses) :
    OneCalendar (classConfig cls) := by
  simp only [defaultClasses, List.mem_cons, List.not_mem_nil, or_false, Prod.mk.injEq] at h
  rcases h with ⟨rfl, rfl⟩ | ⟨rfl, rfl⟩ | ⟨rfl, rfl⟩ | ⟨rfl, rfl⟩ | ⟨rfl, rfl⟩ | ⟨rfl, rfl⟩ | ⟨rfl, rfl⟩ | ⟨rfl, rfl⟩ | ⟨rfl, rfl⟩ | ⟨rfl, rfl⟩ | ⟨rfl, rfl⟩ | ⟨rfl, rfl⟩ | ⟨rfl, rfl⟩ | ⟨rfl, rfl⟩ | ⟨rfl, rfl⟩ | ⟨rfl, rfl⟩ | ⟨rfl, rfl⟩ | ⟨rfl, rfl⟩ | ⟨rfl, rfl⟩ | ⟨rfl, rfl⟩ | ⟨rfl, rfl⟩ | ⟨rfl, rfl⟩ | ⟨rfl, rfl⟩ | ⟨rfl, rfl⟩ | ⟨rfl, rfl⟩ | ⟨rfl, rfl⟩ | ⟨rfl, rfl⟩ | ⟨rfl, rfl⟩ | ⟨rfl, rfl⟩ | ⟨rfl, rfl⟩ | ⟨rfl, rfl⟩ | ⟨rfl, rfl⟩ | ⟨rfl, rfl⟩ | ⟨rfl, rfl⟩ | ⟨rfl, rfl⟩ | ⟨rfl, rfl⟩ | ⟨rfl, rfl⟩ | ⟨rfl, rfl⟩ | ⟨rfl, rfl⟩ | ⟨rfl, rfl⟩ | ⟨rfl, rfl⟩ | ⟨rfl, rfl⟩ | ⟨rfl, rfl⟩ | ⟨rfl, rfl⟩ | ⟨rfl, rfl⟩ | ⟨rfl, rfl⟩ | ⟨rfl, rfl⟩ | ⟨rfl, rfl⟩ | ⟨rfl, rfl⟩ | ⟨rfl, rfl⟩ | ⟨rfl, rfl⟩ | ⟨rfl, rfl⟩ | ⟨rfl, rfl⟩
  · exact oneCalendar_exchange (rules_of_check asex_check)
  · exact oneCalendar_exchange (rules_of_check bvmf_check)
  · exact oneCalendar_exchange (rules_of_check cmes_check)
  · exact oneCalendar_exchange (rules_of_check iepa_check)
  · exact oneCalendar_exchange (rules_of_check xams_check)
  · exact oneCalendar_exchange (rules_of_check xasx_check)
  · exact oneCalendar_exchange (rules_of_check xbkk_check)
  · exact oneCalendar_exchange (rules_of_check xbog_check)
  · exact oneCalendar_exchange (rules_of_check xbom_check)
  · exact oneCalendar_exchange (rules_of_check xbru_check)
  · exact oneCalendar_exchange (rules_of_check xbud_check)
  · exact oneCalendar_exchange (rules_of_check xbue_check)
  · exact oneCalendar_exchange (rules_of_check xcbf_check)
  · exact oneCalendar_exchange (rules_of_check xcse_check)
  · exact oneCalendar_exchange (rules_of_check xdub_check)
  · exact oneCalendar_exchange (rules_of_check xfra_check)
  · exact oneCalendar_exchange (rules_of_check xetr_check)
  · exact oneCalendar_exchange (rules_of_check xhel_check)
  · exact oneCalendar_exchange (rules_of_check xhkg_check)
  · exact oneCalendar_exchange (rules_of_check xice_check)
  · exact oneCalendar_exchange (rules_of_check xidx_check)
  · exact oneCalendar_exchange (rules_of_check xist_check)
  · exact oneCalendar_exchange (rules_of_check xjse_check)
  · exact oneCalendar_exchange (rules_of_check xkar_check)
  · exact oneCalendar_exchange (rules_of_check xkls_check)
  · exact oneCalendar_exchange (rules_of_check xkrx_check)
  · exact oneCalendar_exchange (rules_of_check xlim_check)
  · exact oneCalendar_exchange (rules_of_check xlis_check)
  · exact oneCalendar_exchange (rules_of_check xlon_check)
  · exact oneCalendar_exchange (rules_of_check xmad_check)
  · exact oneCalendar_exchange (rules_of_check xmex_check)
  · exact oneCalendar_exchange (rules_of_check xmil_check)
  · exact oneCalendar_exchange (rules_of_check xmos_check)
  · exact oneCalendar_exchange (rules_of_check xnys_check)
  · exact oneCalendar_exchange (rules_of_check xnze_check)
  · exact oneCalendar_exchange (rules_of_check xosl_check)
  · exact oneCalendar_exchange (rules_of_check xpar_check)
  · exact oneCalendar_exchange (rules_of_check xphs_check)
  · exact oneCalendar_exchange (rules_of_check xpra_check)
  · exact oneCalendar_exchange (rules_of_check xses_check)
  · exact oneCalendar_exchange (rules_of_check xsgo_check)
  · exact oneCalendar_exchange (rules_of_check xshg_check)
  · exact oneCalendar_exchange (rules_of_check xsto_check)
  · exact oneCalendar_exchange (rules_of_check xswx_check)
  · exact oneCalendar_exchange xtae_good
  · exact oneCalendar_exchange (rules_of_check xtai_check)
  · exact oneCalendar_exchange (rules_of_check xtks_check)
  · exact oneCalendar_exchange (rules_of_check xtse_check)
  · exact oneCalendar_exchange (rules_of_check xwar_check)
  · exact oneCalendar_exchange (rules_of_check xwbo_check)
  · exact oneCalendar_exchange (rules_of_check usFuturesCalendar_check)
  · exact fun cal h => by cases h
  · exact fun cal h => by cases h

/-- C83 for the classes of the library. -/
theorem c83_default {name : String} {cls : CalendarClass} (h : (name, cls) ∈ defaultClasses)
    (hb : cls.constructFor start stop = .ok b) (hw : WindowCovers w₀ w₁ start stop)
    (hv : WindowCovers 0 (84370 * DAY) start stop) :
    build ((classConfig cls).within w₀ w₁) start stop = .ok b := by
  rw [c83_model (oneCalendar_default h) hw hv]
  exact constructFor_build hb

/-- XNYS for 2019, with the window of pandas 0.25. -/
example : ∃ b, build ((Xnys.exchange.config Xnys.zone).within 0 (dayOf 2030 12 31 * DAY)) (dayOf 2019 1 1 * DAY)
      (dayOf 2019 12 31 * DAY) = .ok b ∧
    build (Xnys.exchange.config Xnys.zone) (dayOf 2019 1 1 * DAY) (dayOf 2019 12 31 * DAY) = .ok b := by
  have hd : TradesOn Xnys.exchange (dayOf 2019 10 16) := trades_of xnys_check (by decide +kernel)
  obtain ⟨b, hb, -⟩ := (c54_xnys_zone (dayOf 2019 1 1 * DAY) (dayOf 2019 12 31 * DAY) (by decide +kernel)
    (Int.dvd_mul_left _ _)).succeeds (by decide +kernel) ⟨_, by decide +kernel, by decide +kernel, hd⟩
  have e1 : dayOf 2019 1 1 = 17897 := by decide +kernel
  have e2 : dayOf 2019 12 31 = 18261 := by decide +kernel
  have e3 : dayOf 2030 12 31 = 22279 := by decide +kernel
  have hw : WindowCovers 0 (dayOf 2030 12 31 * DAY) (dayOf 2019 1 1 * DAY) (dayOf 2019 12 31 * DAY) := by
    rw [e1, e2, e3]
    intro d h1 h2
    simp only [DAY] at *
    omega
  have hv : WindowCovers 0 (84370 * DAY) (dayOf 2019 1 1 * DAY) (dayOf 2019 12 31 * DAY) := by
    rw [e1, e2]
    intro d h1 h2
    simp only [DAY] at *
    omega
  refine ⟨b, ?_, hb⟩
  rw [c83_model (oneCalendar_exchange (rules_of_check xnys_check)) hw hv]
  exact hb

/-- With that window XNYS trades at Christmas 2031, a Thursday; with the one to 2200 it does not. -/
example : TradingDay ((Xnys.exchange.config Xnys.zone).within 0 (dayOf 2030 12 31 * DAY)) (dayOf 2031 12 25) ∧
    ¬ TradingDay (Xnys.exchange.config Xnys.zone) (dayOf 2031 12 25) := by
  constructor
  · rw [c83_outside (oneCalendar_exchange (rules_of_check xnys_check)) (.inr (by decide +kernel))]
    refine ⟨⟨3, (weekday_iff _ _).2 (by decide +kernel), by decide +kernel⟩, ?_⟩
    decide +kernel
  · rw [tradingDay_iff (rules_of_check xnys_check), ← tradesB_iff (rules_of_check xnys_check)]
    decide +kernel

end TC.Props
