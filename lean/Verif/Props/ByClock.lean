import Verif.Lemmas.ByClock
import Verif.Props.Hours

/-!
# The answers of every calendar, by the clock (C64)

For each exchange: every calendar built answers `is_open_on_minute`, `next_open`, `next_close`,
`previous_open`, `previous_close` and `minute_to_session_label` by the trading days, the documented hours and
the clock of the city.  Each theorem is followed by a case: at the opening of 2019-10-16 (UTC) the calendar
for 2019 can be built and is open.
-/

namespace TC.Props
open Spec Spec.Books Spec.Hours

set_option maxRecDepth 100000

/-- C64 for `ASEXExchangeCalendar`. -/
theorem c64_asex : ByClock Asex.exchange Zones.europeAthens (dayOf 1979 4 3) []
    Hours.athens :=
  byClock_of c61_asex c54_asex_zone clear_europeAthens.tame ⟨by rintro d t t' rfl rfl; rfl, changed_unique, fun _ h => by cases h⟩ (by decide)

example : ∃ b w, build (Asex.exchange.config Zones.europeAthens) (dayOf 2019 1 1 * DAY) (dayOf 2019 12 31 * DAY) = .ok b ∧
    Reads Zones.europeAthens (dayOf 2019 10 16 * DAY + hm 7 1) w ∧ b.cal.isOpenOnMinute (dayOf 2019 10 16 * DAY + hm 7 1) = .ok true ∧
    ∃ d, HoursOn Asex.exchange Zones.europeAthens Hours.athens
      (dayOf 2019 1 1 * DAY) (dayOf 2019 12 31 * DAY) w d :=
  clock_case (d := dayOf 2019 10 16) c64_asex c54_asex_zone clear_europeAthens.tame (by decide) (by decide) <|
    opens_of (o := (hm 10 1)) c61_asex c54_asex_zone (rules_of_check asex_check) (by decide +kernel) (by decide) (by decide)
    (by decide) (fun _ h => h) (by decide +kernel) clear_europeAthens.tame

/-- C64 for `BVMFExchangeCalendar`. -/
theorem c64_bvmf : ByClock Bvmf.exchange Zones.americaSaoPaulo (dayOf 1931 10 5) []
    Hours.saoPaulo :=
  byClock_of c61_bvmf c54_bvmf_zone clear_americaSaoPaulo.tame ⟨by rintro d t t' rfl rfl; rfl, changed_unique, fun _ h => by cases h⟩ (by decide)

example : ∃ b w, build (Bvmf.exchange.config Zones.americaSaoPaulo) (dayOf 2019 1 1 * DAY) (dayOf 2019 12 31 * DAY) = .ok b ∧
    Reads Zones.americaSaoPaulo (dayOf 2019 10 16 * DAY + hm 13 1) w ∧ b.cal.isOpenOnMinute (dayOf 2019 10 16 * DAY + hm 13 1) = .ok true ∧
    ∃ d, HoursOn Bvmf.exchange Zones.americaSaoPaulo Hours.saoPaulo
      (dayOf 2019 1 1 * DAY) (dayOf 2019 12 31 * DAY) w d :=
  clock_case (d := dayOf 2019 10 16) c64_bvmf c54_bvmf_zone clear_americaSaoPaulo.tame (by decide) (by decide) <|
    opens_of (o := (hm 10 1)) c61_bvmf c54_bvmf_zone (rules_of_check bvmf_check) (by decide +kernel) (by decide) (by decide)
    (by decide) (fun _ h => h) (by decide +kernel) clear_americaSaoPaulo.tame

/-- C64 for `CMESExchangeCalendar`. -/
theorem c64_cmes : ByClock Cmes.exchange Zones.americaChicago (dayOf 1901 12 15) []
    Hours.cme :=
  byClock_of c61_cmes c54_cmes_zone clear_americaChicago.tame oneTime_daily (by decide)

example : ∃ b w, build (Cmes.exchange.config Zones.americaChicago) (dayOf 2019 1 1 * DAY) (dayOf 2019 12 31 * DAY) = .ok b ∧
    Reads Zones.americaChicago (dayOf 2019 10 15 * DAY + hm 22 1) w ∧ b.cal.isOpenOnMinute (dayOf 2019 10 15 * DAY + hm 22 1) = .ok true ∧
    ∃ d, HoursOn Cmes.exchange Zones.americaChicago Hours.cme
      (dayOf 2019 1 1 * DAY) (dayOf 2019 12 31 * DAY) w d :=
  clock_case (d := dayOf 2019 10 16) c64_cmes c54_cmes_zone clear_americaChicago.tame (by decide) (by decide) <|
    opens_of (o := (hm 17 1 - DAY)) c61_cmes c54_cmes_zone (rules_of_check cmes_check) (by decide +kernel) (by decide) (by decide)
    (by decide) (fun _ h => h) (by decide +kernel) clear_americaChicago.tame

/-- C64 for `IEPAExchangeCalendar`. -/
theorem c64_iepa : ByClock Iepa.exchange Zones.americaNewYork (dayOf 1901 12 15) []
    Hours.ice :=
  byClock_of c61_iepa c54_iepa_zone clear_americaNewYork.tame oneTime_daily (by decide)

example : ∃ b w, build (Iepa.exchange.config Zones.americaNewYork) (dayOf 2019 1 1 * DAY) (dayOf 2019 12 31 * DAY) = .ok b ∧
    Reads Zones.americaNewYork (dayOf 2019 10 16 * DAY + hm 0 1) w ∧ b.cal.isOpenOnMinute (dayOf 2019 10 16 * DAY + hm 0 1) = .ok true ∧
    ∃ d, HoursOn Iepa.exchange Zones.americaNewYork Hours.ice
      (dayOf 2019 1 1 * DAY) (dayOf 2019 12 31 * DAY) w d :=
  clock_case (d := dayOf 2019 10 16) c64_iepa c54_iepa_zone clear_americaNewYork.tame (by decide) (by decide) <|
    opens_of (o := (hm 20 1 - DAY)) c61_iepa c54_iepa_zone (rules_of_check iepa_check) (by decide +kernel) (by decide) (by decide)
    (by decide) (fun _ h => h) (by decide +kernel) clear_americaNewYork.tame

/-- C64 for `QuantopianUSFuturesCalendar`. -/
theorem c64_usFuturesCalendar : ByClock UsFuturesCalendar.exchange Zones.americaNewYork (dayOf 1901 12 15) []
    Hours.usFutures :=
  byClock_of c61_usFuturesCalendar c54_usFuturesCalendar_zone clear_americaNewYork.tame oneTime_daily (by decide)

example : ∃ b w, build (UsFuturesCalendar.exchange.config Zones.americaNewYork) (dayOf 2019 1 1 * DAY) (dayOf 2019 12 31 * DAY) = .ok b ∧
    Reads Zones.americaNewYork (dayOf 2019 10 15 * DAY + hm 22 1) w ∧ b.cal.isOpenOnMinute (dayOf 2019 10 15 * DAY + hm 22 1) = .ok true ∧
    ∃ d, HoursOn UsFuturesCalendar.exchange Zones.americaNewYork Hours.usFutures
      (dayOf 2019 1 1 * DAY) (dayOf 2019 12 31 * DAY) w d :=
  clock_case (d := dayOf 2019 10 16) c64_usFuturesCalendar c54_usFuturesCalendar_zone clear_americaNewYork.tame (by decide) (by decide) <|
    opens_of (o := (hm 18 1 - DAY)) c61_usFuturesCalendar c54_usFuturesCalendar_zone (rules_of_check usFuturesCalendar_check) (by decide +kernel) (by decide) (by decide)
    (by decide) (fun _ h => h) (by decide +kernel) clear_americaNewYork.tame

/-- C64 for `XAMSExchangeCalendar`. -/
theorem c64_xams : ByClock Xams.exchange Zones.europeAmsterdam (dayOf 1700 1 2) []
    (Hours.daily (hm 9 1) (hm 17 30) (EarlyByBook euronextEarly [])) :=
  byClock_of c61_xams c54_xams_zone clear_europeAmsterdam.tame oneTime_daily (by decide)

example : ∃ b w, build (Xams.exchange.config Zones.europeAmsterdam) (dayOf 2019 1 1 * DAY) (dayOf 2019 12 31 * DAY) = .ok b ∧
    Reads Zones.europeAmsterdam (dayOf 2019 10 16 * DAY + hm 7 1) w ∧ b.cal.isOpenOnMinute (dayOf 2019 10 16 * DAY + hm 7 1) = .ok true ∧
    ∃ d, HoursOn Xams.exchange Zones.europeAmsterdam (Hours.daily (hm 9 1) (hm 17 30) (EarlyByBook euronextEarly []))
      (dayOf 2019 1 1 * DAY) (dayOf 2019 12 31 * DAY) w d :=
  clock_case (d := dayOf 2019 10 16) c64_xams c54_xams_zone clear_europeAmsterdam.tame (by decide) (by decide) <|
    opens_of (o := (hm 9 1)) c61_xams c54_xams_zone (rules_of_check xams_check) (by decide +kernel) (by decide) (by decide)
    (by decide) (fun _ h => h) (by decide +kernel) clear_europeAmsterdam.tame

/-- C64 for `XASXExchangeCalendar`. -/
theorem c64_xasx : ByClock Xasx.exchange Zones.australiaSydney (dayOf 1700 1 2) []
    (Hours.daily (hm 10 1) (hm 16 0) (EarlyByBook sydneyEarly [])) :=
  byClock_of c61_xasx c54_xasx_zone clear_australiaSydney.tame oneTime_daily (by decide)

example : ∃ b w, build (Xasx.exchange.config Zones.australiaSydney) (dayOf 2019 1 1 * DAY) (dayOf 2019 12 31 * DAY) = .ok b ∧
    Reads Zones.australiaSydney (dayOf 2019 10 15 * DAY + hm 23 1) w ∧ b.cal.isOpenOnMinute (dayOf 2019 10 15 * DAY + hm 23 1) = .ok true ∧
    ∃ d, HoursOn Xasx.exchange Zones.australiaSydney (Hours.daily (hm 10 1) (hm 16 0) (EarlyByBook sydneyEarly []))
      (dayOf 2019 1 1 * DAY) (dayOf 2019 12 31 * DAY) w d :=
  clock_case (d := dayOf 2019 10 16) c64_xasx c54_xasx_zone clear_australiaSydney.tame (by decide) (by decide) <|
    opens_of (o := (hm 10 1)) c61_xasx c54_xasx_zone (rules_of_check xasx_check) (by decide +kernel) (by decide) (by decide)
    (by decide) (fun _ h => h) (by decide +kernel) clear_australiaSydney.tame

/-- C64 for `XBKKExchangeCalendar`. -/
theorem c64_xbkk : ByClock Xbkk.exchange Zones.asiaBangkok (dayOf 1700 1 2) []
    (Hours.daily (hm 10 1) (hm 16 30)) :=
  byClock_of c61_xbkk c54_xbkk_zone clear_asiaBangkok.tame oneTime_daily (by decide)

example : ∃ b w, build (Xbkk.exchange.config Zones.asiaBangkok) (dayOf 2019 1 1 * DAY) (dayOf 2019 12 31 * DAY) = .ok b ∧
    Reads Zones.asiaBangkok (dayOf 2019 10 16 * DAY + hm 3 1) w ∧ b.cal.isOpenOnMinute (dayOf 2019 10 16 * DAY + hm 3 1) = .ok true ∧
    ∃ d, HoursOn Xbkk.exchange Zones.asiaBangkok (Hours.daily (hm 10 1) (hm 16 30))
      (dayOf 2019 1 1 * DAY) (dayOf 2019 12 31 * DAY) w d :=
  clock_case (d := dayOf 2019 10 16) c64_xbkk c54_xbkk_zone clear_asiaBangkok.tame (by decide) (by decide) <|
    opens_of (o := (hm 10 1)) c61_xbkk c54_xbkk_zone (rules_of_check xbkk_check) (by decide +kernel) (by decide) (by decide)
    (by decide) (fun _ h => h) (by decide +kernel) clear_asiaBangkok.tame

/-- C64 for `XBOGExchangeCalendar`. -/
theorem c64_xbog : ByClock Xbog.exchange Zones.americaNewYork (dayOf 1901 12 15) []
    (Hours.daily (hm 9 31) (hm 16 0)) :=
  byClock_of c61_xbog c54_xbog_zone clear_americaNewYork.tame oneTime_daily (by decide)

example : ∃ b w, build (Xbog.exchange.config Zones.americaNewYork) (dayOf 2019 1 1 * DAY) (dayOf 2019 12 31 * DAY) = .ok b ∧
    Reads Zones.americaNewYork (dayOf 2019 10 16 * DAY + hm 13 31) w ∧ b.cal.isOpenOnMinute (dayOf 2019 10 16 * DAY + hm 13 31) = .ok true ∧
    ∃ d, HoursOn Xbog.exchange Zones.americaNewYork (Hours.daily (hm 9 31) (hm 16 0))
      (dayOf 2019 1 1 * DAY) (dayOf 2019 12 31 * DAY) w d :=
  clock_case (d := dayOf 2019 10 16) c64_xbog c54_xbog_zone clear_americaNewYork.tame (by decide) (by decide) <|
    opens_of (o := (hm 9 31)) c61_xbog c54_xbog_zone (rules_of_check xbog_check) (by decide +kernel) (by decide) (by decide)
    (by decide) (fun _ h => h) (by decide +kernel) clear_americaNewYork.tame

/-- C64 for `XBOMExchangeCalendar`. -/
theorem c64_xbom : ByClock Xbom.exchange Zones.asiaCalcutta (dayOf 1700 1 2) []
    (Hours.daily (hm 9 16) (hm 15 30)) :=
  byClock_of c61_xbom c54_xbom_zone clear_asiaCalcutta.tame oneTime_daily (by decide)

example : ∃ b w, build (Xbom.exchange.config Zones.asiaCalcutta) (dayOf 2019 1 1 * DAY) (dayOf 2019 12 31 * DAY) = .ok b ∧
    Reads Zones.asiaCalcutta (dayOf 2019 10 16 * DAY + hm 3 46) w ∧ b.cal.isOpenOnMinute (dayOf 2019 10 16 * DAY + hm 3 46) = .ok true ∧
    ∃ d, HoursOn Xbom.exchange Zones.asiaCalcutta (Hours.daily (hm 9 16) (hm 15 30))
      (dayOf 2019 1 1 * DAY) (dayOf 2019 12 31 * DAY) w d :=
  clock_case (d := dayOf 2019 10 16) c64_xbom c54_xbom_zone clear_asiaCalcutta.tame (by decide) (by decide) <|
    opens_of (o := (hm 9 16)) c61_xbom c54_xbom_zone (rules_of_check xbom_check) (by decide +kernel) (by decide) (by decide)
    (by decide) (fun _ h => h) (by decide +kernel) clear_asiaCalcutta.tame

/-- C64 for `XBRUExchangeCalendar`. -/
theorem c64_xbru : ByClock Xbru.exchange Zones.europeBrussels (dayOf 1918 11 13) []
    (Hours.daily (hm 9 1) (hm 17 30) (EarlyByBook euronextEarly [])) :=
  byClock_of c61_xbru c54_xbru_zone clear_europeBrussels.tame oneTime_daily (by decide)

example : ∃ b w, build (Xbru.exchange.config Zones.europeBrussels) (dayOf 2019 1 1 * DAY) (dayOf 2019 12 31 * DAY) = .ok b ∧
    Reads Zones.europeBrussels (dayOf 2019 10 16 * DAY + hm 7 1) w ∧ b.cal.isOpenOnMinute (dayOf 2019 10 16 * DAY + hm 7 1) = .ok true ∧
    ∃ d, HoursOn Xbru.exchange Zones.europeBrussels (Hours.daily (hm 9 1) (hm 17 30) (EarlyByBook euronextEarly []))
      (dayOf 2019 1 1 * DAY) (dayOf 2019 12 31 * DAY) w d :=
  clock_case (d := dayOf 2019 10 16) c64_xbru c54_xbru_zone clear_europeBrussels.tame (by decide) (by decide) <|
    opens_of (o := (hm 9 1)) c61_xbru c54_xbru_zone (rules_of_check xbru_check) (by decide +kernel) (by decide) (by decide)
    (by decide) (fun _ h => h) (by decide +kernel) clear_europeBrussels.tame

/-- C64 for `XBUDExchangeCalendar`. -/
theorem c64_xbud : ByClock Xbud.exchange Zones.europeBudapest (dayOf 1700 1 2) []
    (Hours.daily (hm 9 1) (hm 17 0)) :=
  byClock_of c61_xbud c54_xbud_zone clear_europeBudapest.tame oneTime_daily (by decide)

example : ∃ b w, build (Xbud.exchange.config Zones.europeBudapest) (dayOf 2019 1 1 * DAY) (dayOf 2019 12 31 * DAY) = .ok b ∧
    Reads Zones.europeBudapest (dayOf 2019 10 16 * DAY + hm 7 1) w ∧ b.cal.isOpenOnMinute (dayOf 2019 10 16 * DAY + hm 7 1) = .ok true ∧
    ∃ d, HoursOn Xbud.exchange Zones.europeBudapest (Hours.daily (hm 9 1) (hm 17 0))
      (dayOf 2019 1 1 * DAY) (dayOf 2019 12 31 * DAY) w d :=
  clock_case (d := dayOf 2019 10 16) c64_xbud c54_xbud_zone clear_europeBudapest.tame (by decide) (by decide) <|
    opens_of (o := (hm 9 1)) c61_xbud c54_xbud_zone (rules_of_check xbud_check) (by decide +kernel) (by decide) (by decide)
    (by decide) (fun _ h => h) (by decide +kernel) clear_europeBudapest.tame

/-- C64 for `XBUEExchangeCalendar`. -/
theorem c64_xbue : ByClock Xbue.exchange Zones.americaArgentinaBuenosAires (dayOf 1901 12 15) []
    (Hours.daily (hm 11 1) (hm 17 0) (EarlyByBook buenosAiresEarly [])) :=
  byClock_of c61_xbue c54_xbue_zone clear_americaArgentinaBuenosAires.tame oneTime_daily (by decide)

example : ∃ b w, build (Xbue.exchange.config Zones.americaArgentinaBuenosAires) (dayOf 2019 1 1 * DAY) (dayOf 2019 12 31 * DAY) = .ok b ∧
    Reads Zones.americaArgentinaBuenosAires (dayOf 2019 10 16 * DAY + hm 14 1) w ∧ b.cal.isOpenOnMinute (dayOf 2019 10 16 * DAY + hm 14 1) = .ok true ∧
    ∃ d, HoursOn Xbue.exchange Zones.americaArgentinaBuenosAires (Hours.daily (hm 11 1) (hm 17 0) (EarlyByBook buenosAiresEarly []))
      (dayOf 2019 1 1 * DAY) (dayOf 2019 12 31 * DAY) w d :=
  clock_case (d := dayOf 2019 10 16) c64_xbue c54_xbue_zone clear_americaArgentinaBuenosAires.tame (by decide) (by decide) <|
    opens_of (o := (hm 11 1)) c61_xbue c54_xbue_zone (rules_of_check xbue_check) (by decide +kernel) (by decide) (by decide)
    (by decide) (fun _ h => h) (by decide +kernel) clear_americaArgentinaBuenosAires.tame

/-- C64 for `XCBFExchangeCalendar`. -/
theorem c64_xcbf : ByClock Xcbf.exchange Zones.americaChicago (dayOf 1901 12 15) []
    (Hours.daily (hm 8 31) (hm 15 15) (EarlyByBook cboeEarly [])) :=
  byClock_of c61_xcbf c54_xcbf_zone clear_americaChicago.tame oneTime_daily (by decide)

example : ∃ b w, build (Xcbf.exchange.config Zones.americaChicago) (dayOf 2019 1 1 * DAY) (dayOf 2019 12 31 * DAY) = .ok b ∧
    Reads Zones.americaChicago (dayOf 2019 10 16 * DAY + hm 13 31) w ∧ b.cal.isOpenOnMinute (dayOf 2019 10 16 * DAY + hm 13 31) = .ok true ∧
    ∃ d, HoursOn Xcbf.exchange Zones.americaChicago (Hours.daily (hm 8 31) (hm 15 15) (EarlyByBook cboeEarly []))
      (dayOf 2019 1 1 * DAY) (dayOf 2019 12 31 * DAY) w d :=
  clock_case (d := dayOf 2019 10 16) c64_xcbf c54_xcbf_zone clear_americaChicago.tame (by decide) (by decide) <|
    opens_of (o := (hm 8 31)) c61_xcbf c54_xcbf_zone (rules_of_check xcbf_check) (by decide +kernel) (by decide) (by decide)
    (by decide) (fun _ h => h) (by decide +kernel) clear_americaChicago.tame

/-- C64 for `XCSEExchangeCalendar`. -/
theorem c64_xcse : ByClock Xcse.exchange Zones.europeCopenhagen (dayOf 1700 1 2) []
    (Hours.daily (hm 9 1) (hm 17 0)) :=
  byClock_of c61_xcse c54_xcse_zone clear_europeCopenhagen.tame oneTime_daily (by decide)

example : ∃ b w, build (Xcse.exchange.config Zones.europeCopenhagen) (dayOf 2019 1 1 * DAY) (dayOf 2019 12 31 * DAY) = .ok b ∧
    Reads Zones.europeCopenhagen (dayOf 2019 10 16 * DAY + hm 7 1) w ∧ b.cal.isOpenOnMinute (dayOf 2019 10 16 * DAY + hm 7 1) = .ok true ∧
    ∃ d, HoursOn Xcse.exchange Zones.europeCopenhagen (Hours.daily (hm 9 1) (hm 17 0))
      (dayOf 2019 1 1 * DAY) (dayOf 2019 12 31 * DAY) w d :=
  clock_case (d := dayOf 2019 10 16) c64_xcse c54_xcse_zone clear_europeCopenhagen.tame (by decide) (by decide) <|
    opens_of (o := (hm 9 1)) c61_xcse c54_xcse_zone (rules_of_check xcse_check) (by decide +kernel) (by decide) (by decide)
    (by decide) (fun _ h => h) (by decide +kernel) clear_europeCopenhagen.tame

/-- C64 for `XDUBExchangeCalendar`. -/
theorem c64_xdub : ByClock Xdub.exchange Zones.europeDublin (dayOf 1700 1 2) []
    (Hours.daily (hm 8 1) (hm 16 28) (EarlyByBook dublinEarly dublinSingle)) :=
  byClock_of c61_xdub c54_xdub_zone clear_europeDublin.tame oneTime_daily (by decide)

example : ∃ b w, build (Xdub.exchange.config Zones.europeDublin) (dayOf 2019 1 1 * DAY) (dayOf 2019 12 31 * DAY) = .ok b ∧
    Reads Zones.europeDublin (dayOf 2019 10 16 * DAY + hm 7 1) w ∧ b.cal.isOpenOnMinute (dayOf 2019 10 16 * DAY + hm 7 1) = .ok true ∧
    ∃ d, HoursOn Xdub.exchange Zones.europeDublin (Hours.daily (hm 8 1) (hm 16 28) (EarlyByBook dublinEarly dublinSingle))
      (dayOf 2019 1 1 * DAY) (dayOf 2019 12 31 * DAY) w d :=
  clock_case (d := dayOf 2019 10 16) c64_xdub c54_xdub_zone clear_europeDublin.tame (by decide) (by decide) <|
    opens_of (o := (hm 8 1)) c61_xdub c54_xdub_zone (rules_of_check xdub_check) (by decide +kernel) (by decide) (by decide)
    (by decide) (fun _ h => h) (by decide +kernel) clear_europeDublin.tame

/-- C64 for `XETRExchangeCalendar`. -/
theorem c64_xetr : ByClock Xetr.exchange Zones.cet (dayOf 1700 1 2) []
    (Hours.daily (hm 9 1) (hm 17 30) (EarlyByBook xetraEarly [])) :=
  byClock_of c61_xetr c54_xetr_zone clear_cet.tame oneTime_daily (by decide)

example : ∃ b w, build (Xetr.exchange.config Zones.cet) (dayOf 2019 1 1 * DAY) (dayOf 2019 12 31 * DAY) = .ok b ∧
    Reads Zones.cet (dayOf 2019 10 16 * DAY + hm 7 1) w ∧ b.cal.isOpenOnMinute (dayOf 2019 10 16 * DAY + hm 7 1) = .ok true ∧
    ∃ d, HoursOn Xetr.exchange Zones.cet (Hours.daily (hm 9 1) (hm 17 30) (EarlyByBook xetraEarly []))
      (dayOf 2019 1 1 * DAY) (dayOf 2019 12 31 * DAY) w d :=
  clock_case (d := dayOf 2019 10 16) c64_xetr c54_xetr_zone clear_cet.tame (by decide) (by decide) <|
    opens_of (o := (hm 9 1)) c61_xetr c54_xetr_zone (rules_of_check xetr_check) (by decide +kernel) (by decide) (by decide)
    (by decide) (fun _ h => h) (by decide +kernel) clear_cet.tame

/-- C64 for `XFRAExchangeCalendar`. -/
theorem c64_xfra : ByClock Xfra.exchange Zones.cet (dayOf 1700 1 2) []
    (Hours.daily (hm 9 1) (hm 17 30) (EarlyByBook frankfurtEarly [])) :=
  byClock_of c61_xfra c54_xfra_zone clear_cet.tame oneTime_daily (by decide)

example : ∃ b w, build (Xfra.exchange.config Zones.cet) (dayOf 2019 1 1 * DAY) (dayOf 2019 12 31 * DAY) = .ok b ∧
    Reads Zones.cet (dayOf 2019 10 16 * DAY + hm 7 1) w ∧ b.cal.isOpenOnMinute (dayOf 2019 10 16 * DAY + hm 7 1) = .ok true ∧
    ∃ d, HoursOn Xfra.exchange Zones.cet (Hours.daily (hm 9 1) (hm 17 30) (EarlyByBook frankfurtEarly []))
      (dayOf 2019 1 1 * DAY) (dayOf 2019 12 31 * DAY) w d :=
  clock_case (d := dayOf 2019 10 16) c64_xfra c54_xfra_zone clear_cet.tame (by decide) (by decide) <|
    opens_of (o := (hm 9 1)) c61_xfra c54_xfra_zone (rules_of_check xfra_check) (by decide +kernel) (by decide) (by decide)
    (by decide) (fun _ h => h) (by decide +kernel) clear_cet.tame

/-- C64 for `XHELExchangeCalendar`. -/
theorem c64_xhel : ByClock Xhel.exchange Zones.europeHelsinki (dayOf 1700 1 2) []
    (Hours.daily (hm 10 1) (hm 18 30)) :=
  byClock_of c61_xhel c54_xhel_zone clear_europeHelsinki.tame oneTime_daily (by decide)

example : ∃ b w, build (Xhel.exchange.config Zones.europeHelsinki) (dayOf 2019 1 1 * DAY) (dayOf 2019 12 31 * DAY) = .ok b ∧
    Reads Zones.europeHelsinki (dayOf 2019 10 16 * DAY + hm 7 1) w ∧ b.cal.isOpenOnMinute (dayOf 2019 10 16 * DAY + hm 7 1) = .ok true ∧
    ∃ d, HoursOn Xhel.exchange Zones.europeHelsinki (Hours.daily (hm 10 1) (hm 18 30))
      (dayOf 2019 1 1 * DAY) (dayOf 2019 12 31 * DAY) w d :=
  clock_case (d := dayOf 2019 10 16) c64_xhel c54_xhel_zone clear_europeHelsinki.tame (by decide) (by decide) <|
    opens_of (o := (hm 10 1)) c61_xhel c54_xhel_zone (rules_of_check xhel_check) (by decide +kernel) (by decide) (by decide)
    (by decide) (fun _ h => h) (by decide +kernel) clear_europeHelsinki.tame

/-- C64 for `XHKGExchangeCalendar`. -/
theorem c64_xhkg : ByClock Xhkg.exchange Zones.asiaHongKong (dayOf 1700 1 2) []
    Hours.hongKong :=
  byClock_of c61_xhkg c54_xhkg_zone clear_asiaHongKong.tame ⟨changed_unique, by rintro d t t' rfl rfl; rfl, by rintro p h; cases h; decide⟩ (by decide)

example : ∃ b w, build (Xhkg.exchange.config Zones.asiaHongKong) (dayOf 2019 1 1 * DAY) (dayOf 2019 12 31 * DAY) = .ok b ∧
    Reads Zones.asiaHongKong (dayOf 2019 10 16 * DAY + hm 1 31) w ∧ b.cal.isOpenOnMinute (dayOf 2019 10 16 * DAY + hm 1 31) = .ok true ∧
    ∃ d, HoursOn Xhkg.exchange Zones.asiaHongKong Hours.hongKong
      (dayOf 2019 1 1 * DAY) (dayOf 2019 12 31 * DAY) w d :=
  clock_case (d := dayOf 2019 10 16) c64_xhkg c54_xhkg_zone clear_asiaHongKong.tame (by decide) (by decide) <|
    opens_of (o := (hm 9 31)) c61_xhkg c54_xhkg_zone (rules_of_check xhkg_check) (by decide +kernel) (by decide) (by decide)
    (by decide) (fun _ h => changed_at (by decide) (by decide) h) (by decide +kernel) clear_asiaHongKong.tame

/-- C64 for `XICEExchangeCalendar`. -/
theorem c64_xice : ByClock Xice.exchange Zones.atlanticReykjavik (dayOf 1700 1 2) []
    (Hours.daily (hm 9 31) (hm 15 30)) :=
  byClock_of c61_xice c54_xice_zone clear_atlanticReykjavik.tame oneTime_daily (by decide)

example : ∃ b w, build (Xice.exchange.config Zones.atlanticReykjavik) (dayOf 2019 1 1 * DAY) (dayOf 2019 12 31 * DAY) = .ok b ∧
    Reads Zones.atlanticReykjavik (dayOf 2019 10 16 * DAY + hm 9 31) w ∧ b.cal.isOpenOnMinute (dayOf 2019 10 16 * DAY + hm 9 31) = .ok true ∧
    ∃ d, HoursOn Xice.exchange Zones.atlanticReykjavik (Hours.daily (hm 9 31) (hm 15 30))
      (dayOf 2019 1 1 * DAY) (dayOf 2019 12 31 * DAY) w d :=
  clock_case (d := dayOf 2019 10 16) c64_xice c54_xice_zone clear_atlanticReykjavik.tame (by decide) (by decide) <|
    opens_of (o := (hm 9 31)) c61_xice c54_xice_zone (rules_of_check xice_check) (by decide +kernel) (by decide) (by decide)
    (by decide) (fun _ h => h) (by decide +kernel) clear_atlanticReykjavik.tame

/-- C64 for `XIDXExchangeCalendar`. -/
theorem c64_xidx : ByClock Xidx.exchange Zones.asiaJakarta (dayOf 1700 1 2) []
    (Hours.daily (hm 9 1) (hm 15 50)) :=
  byClock_of c61_xidx c54_xidx_zone clear_asiaJakarta.tame oneTime_daily (by decide)

example : ∃ b w, build (Xidx.exchange.config Zones.asiaJakarta) (dayOf 2019 1 1 * DAY) (dayOf 2019 12 31 * DAY) = .ok b ∧
    Reads Zones.asiaJakarta (dayOf 2019 10 16 * DAY + hm 2 1) w ∧ b.cal.isOpenOnMinute (dayOf 2019 10 16 * DAY + hm 2 1) = .ok true ∧
    ∃ d, HoursOn Xidx.exchange Zones.asiaJakarta (Hours.daily (hm 9 1) (hm 15 50))
      (dayOf 2019 1 1 * DAY) (dayOf 2019 12 31 * DAY) w d :=
  clock_case (d := dayOf 2019 10 16) c64_xidx c54_xidx_zone clear_asiaJakarta.tame (by decide) (by decide) <|
    opens_of (o := (hm 9 1)) c61_xidx c54_xidx_zone (rules_of_check xidx_check) (by decide +kernel) (by decide) (by decide)
    (by decide) (fun _ h => h) (by decide +kernel) clear_asiaJakarta.tame

/-- C64 for `XISTExchangeCalendar`. -/
theorem c64_xist : ByClock Xist.exchange Zones.europeIstanbul (dayOf 1700 1 2) [dayOf 2029 4 23]
    (Hours.daily (hm 10 1) (hm 18 0) (EarlyForFeasts istanbulEarly istanbulEves istanbulFullEves)) :=
  byClock_of c61_xist c54_xist_zone clear_europeIstanbul.tame oneTime_daily (by decide)

example : ∃ b w, build (Xist.exchange.config Zones.europeIstanbul) (dayOf 2019 1 1 * DAY) (dayOf 2019 12 31 * DAY) = .ok b ∧
    Reads Zones.europeIstanbul (dayOf 2019 10 16 * DAY + hm 7 1) w ∧ b.cal.isOpenOnMinute (dayOf 2019 10 16 * DAY + hm 7 1) = .ok true ∧
    ∃ d, HoursOn Xist.exchange Zones.europeIstanbul (Hours.daily (hm 10 1) (hm 18 0) (EarlyForFeasts istanbulEarly istanbulEves istanbulFullEves))
      (dayOf 2019 1 1 * DAY) (dayOf 2019 12 31 * DAY) w d :=
  clock_case (d := dayOf 2019 10 16) c64_xist c54_xist_zone clear_europeIstanbul.tame (by decide) (by decide) <|
    opens_of (o := (hm 10 1)) c61_xist c54_xist_zone (rules_of_check xist_check) (by decide +kernel) (by decide) (by decide)
    (by decide) (fun _ h => h) (by decide +kernel) clear_europeIstanbul.tame

/-- C64 for `XJSEExchangeCalendar`. -/
theorem c64_xjse : ByClock Xjse.exchange Zones.africaJohannesburg (dayOf 1700 1 2) []
    (Hours.daily (hm 9 1) (hm 17 0)) :=
  byClock_of c61_xjse c54_xjse_zone clear_africaJohannesburg.tame oneTime_daily (by decide)

example : ∃ b w, build (Xjse.exchange.config Zones.africaJohannesburg) (dayOf 2019 1 1 * DAY) (dayOf 2019 12 31 * DAY) = .ok b ∧
    Reads Zones.africaJohannesburg (dayOf 2019 10 16 * DAY + hm 7 1) w ∧ b.cal.isOpenOnMinute (dayOf 2019 10 16 * DAY + hm 7 1) = .ok true ∧
    ∃ d, HoursOn Xjse.exchange Zones.africaJohannesburg (Hours.daily (hm 9 1) (hm 17 0))
      (dayOf 2019 1 1 * DAY) (dayOf 2019 12 31 * DAY) w d :=
  clock_case (d := dayOf 2019 10 16) c64_xjse c54_xjse_zone clear_africaJohannesburg.tame (by decide) (by decide) <|
    opens_of (o := (hm 9 1)) c61_xjse c54_xjse_zone (rules_of_check xjse_check) (by decide +kernel) (by decide) (by decide)
    (by decide) (fun _ h => h) (by decide +kernel) clear_africaJohannesburg.tame

/-- C64 for `XKARExchangeCalendar`. -/
theorem c64_xkar : ByClock Xkar.exchange Zones.asiaKarachi (dayOf 1700 1 2) []
    (Hours.daily (hm 9 33) (hm 15 30)) :=
  byClock_of c61_xkar c54_xkar_zone clear_asiaKarachi.tame oneTime_daily (by decide)

example : ∃ b w, build (Xkar.exchange.config Zones.asiaKarachi) (dayOf 2019 1 1 * DAY) (dayOf 2019 12 31 * DAY) = .ok b ∧
    Reads Zones.asiaKarachi (dayOf 2019 10 16 * DAY + hm 4 33) w ∧ b.cal.isOpenOnMinute (dayOf 2019 10 16 * DAY + hm 4 33) = .ok true ∧
    ∃ d, HoursOn Xkar.exchange Zones.asiaKarachi (Hours.daily (hm 9 33) (hm 15 30))
      (dayOf 2019 1 1 * DAY) (dayOf 2019 12 31 * DAY) w d :=
  clock_case (d := dayOf 2019 10 16) c64_xkar c54_xkar_zone clear_asiaKarachi.tame (by decide) (by decide) <|
    opens_of (o := (hm 9 33)) c61_xkar c54_xkar_zone (rules_of_check xkar_check) (by decide +kernel) (by decide) (by decide)
    (by decide) (fun _ h => h) (by decide +kernel) clear_asiaKarachi.tame

/-- C64 for `XKLSExchangeCalendar`. -/
theorem c64_xkls : ByClock Xkls.exchange Zones.asiaKualaLumpur (dayOf 1700 1 2) [dayOf 1984 2 1, dayOf 2029 2 13, dayOf 2031 1 23, dayOf 2049 2 1]
    (Hours.daily (hm 9 1) (hm 17 0) (EarlyForFeasts [] kualaLumpurEves kualaLumpurFullEves)) :=
  byClock_of c61_xkls c54_xkls_zone clear_asiaKualaLumpur.tame oneTime_daily (by decide)

example : ∃ b w, build (Xkls.exchange.config Zones.asiaKualaLumpur) (dayOf 2019 1 1 * DAY) (dayOf 2019 12 31 * DAY) = .ok b ∧
    Reads Zones.asiaKualaLumpur (dayOf 2019 10 16 * DAY + hm 1 1) w ∧ b.cal.isOpenOnMinute (dayOf 2019 10 16 * DAY + hm 1 1) = .ok true ∧
    ∃ d, HoursOn Xkls.exchange Zones.asiaKualaLumpur (Hours.daily (hm 9 1) (hm 17 0) (EarlyForFeasts [] kualaLumpurEves kualaLumpurFullEves))
      (dayOf 2019 1 1 * DAY) (dayOf 2019 12 31 * DAY) w d :=
  clock_case (d := dayOf 2019 10 16) c64_xkls c54_xkls_zone clear_asiaKualaLumpur.tame (by decide) (by decide) <|
    opens_of (o := (hm 9 1)) c61_xkls c54_xkls_zone (rules_of_check xkls_check) (by decide +kernel) (by decide) (by decide)
    (by decide) (fun _ h => h) (by decide +kernel) clear_asiaKualaLumpur.tame

/-- C64 for `XKRXExchangeCalendar`. -/
theorem c64_xkrx : ByClock Xkrx.exchange Zones.asiaSeoul (dayOf 1700 1 2) []
    (Hours.daily (hm 9 1) (hm 15 30)) :=
  byClock_of c61_xkrx c54_xkrx_zone clear_asiaSeoul.tame oneTime_daily (by decide)

example : ∃ b w, build (Xkrx.exchange.config Zones.asiaSeoul) (dayOf 2019 1 1 * DAY) (dayOf 2019 12 31 * DAY) = .ok b ∧
    Reads Zones.asiaSeoul (dayOf 2019 10 16 * DAY + hm 0 1) w ∧ b.cal.isOpenOnMinute (dayOf 2019 10 16 * DAY + hm 0 1) = .ok true ∧
    ∃ d, HoursOn Xkrx.exchange Zones.asiaSeoul (Hours.daily (hm 9 1) (hm 15 30))
      (dayOf 2019 1 1 * DAY) (dayOf 2019 12 31 * DAY) w d :=
  clock_case (d := dayOf 2019 10 16) c64_xkrx c54_xkrx_zone clear_asiaSeoul.tame (by decide) (by decide) <|
    opens_of (o := (hm 9 1)) c61_xkrx c54_xkrx_zone (rules_of_check xkrx_check) (by decide +kernel) (by decide) (by decide)
    (by decide) (fun _ h => h) (by decide +kernel) clear_asiaSeoul.tame

/-- C64 for `XLIMExchangeCalendar`. -/
theorem c64_xlim : ByClock Xlim.exchange Zones.americaLima (dayOf 1901 12 15) []
    (Hours.daily (hm 9 1) (hm 16 0)) :=
  byClock_of c61_xlim c54_xlim_zone clear_americaLima.tame oneTime_daily (by decide)

example : ∃ b w, build (Xlim.exchange.config Zones.americaLima) (dayOf 2019 1 1 * DAY) (dayOf 2019 12 31 * DAY) = .ok b ∧
    Reads Zones.americaLima (dayOf 2019 10 16 * DAY + hm 14 1) w ∧ b.cal.isOpenOnMinute (dayOf 2019 10 16 * DAY + hm 14 1) = .ok true ∧
    ∃ d, HoursOn Xlim.exchange Zones.americaLima (Hours.daily (hm 9 1) (hm 16 0))
      (dayOf 2019 1 1 * DAY) (dayOf 2019 12 31 * DAY) w d :=
  clock_case (d := dayOf 2019 10 16) c64_xlim c54_xlim_zone clear_americaLima.tame (by decide) (by decide) <|
    opens_of (o := (hm 9 1)) c61_xlim c54_xlim_zone (rules_of_check xlim_check) (by decide +kernel) (by decide) (by decide)
    (by decide) (fun _ h => h) (by decide +kernel) clear_americaLima.tame

/-- C64 for `XLISExchangeCalendar`. -/
theorem c64_xlis : ByClock Xlis.exchange Zones.europeLisbon (dayOf 1700 1 2) []
    (Hours.daily (hm 8 1) (hm 16 30) (EarlyByBook lisbonEarly [])) :=
  byClock_of c61_xlis c54_xlis_zone clear_europeLisbon.tame oneTime_daily (by decide)

example : ∃ b w, build (Xlis.exchange.config Zones.europeLisbon) (dayOf 2019 1 1 * DAY) (dayOf 2019 12 31 * DAY) = .ok b ∧
    Reads Zones.europeLisbon (dayOf 2019 10 16 * DAY + hm 7 1) w ∧ b.cal.isOpenOnMinute (dayOf 2019 10 16 * DAY + hm 7 1) = .ok true ∧
    ∃ d, HoursOn Xlis.exchange Zones.europeLisbon (Hours.daily (hm 8 1) (hm 16 30) (EarlyByBook lisbonEarly []))
      (dayOf 2019 1 1 * DAY) (dayOf 2019 12 31 * DAY) w d :=
  clock_case (d := dayOf 2019 10 16) c64_xlis c54_xlis_zone clear_europeLisbon.tame (by decide) (by decide) <|
    opens_of (o := (hm 8 1)) c61_xlis c54_xlis_zone (rules_of_check xlis_check) (by decide +kernel) (by decide) (by decide)
    (by decide) (fun _ h => h) (by decide +kernel) clear_europeLisbon.tame

/-- C64 for `XLONExchangeCalendar`. -/
theorem c64_xlon : ByClock Xlon.exchange Zones.europeLondon (dayOf 1901 12 15) []
    (Hours.daily (hm 8 1) (hm 16 30) (EarlyByBook londonEarly [])) :=
  byClock_of c61_xlon c54_xlon_zone clear_europeLondon.tame oneTime_daily (by decide)

example : ∃ b w, build (Xlon.exchange.config Zones.europeLondon) (dayOf 2019 1 1 * DAY) (dayOf 2019 12 31 * DAY) = .ok b ∧
    Reads Zones.europeLondon (dayOf 2019 10 16 * DAY + hm 7 1) w ∧ b.cal.isOpenOnMinute (dayOf 2019 10 16 * DAY + hm 7 1) = .ok true ∧
    ∃ d, HoursOn Xlon.exchange Zones.europeLondon (Hours.daily (hm 8 1) (hm 16 30) (EarlyByBook londonEarly []))
      (dayOf 2019 1 1 * DAY) (dayOf 2019 12 31 * DAY) w d :=
  clock_case (d := dayOf 2019 10 16) c64_xlon c54_xlon_zone clear_europeLondon.tame (by decide) (by decide) <|
    opens_of (o := (hm 8 1)) c61_xlon c54_xlon_zone (rules_of_check xlon_check) (by decide +kernel) (by decide) (by decide)
    (by decide) (fun _ h => h) (by decide +kernel) clear_europeLondon.tame

/-- C64 for `XMADExchangeCalendar`. -/
theorem c64_xmad : ByClock Xmad.exchange Zones.europeMadrid (dayOf 1901 12 15) []
    (Hours.daily (hm 9 1) (hm 17 30) (EarlyByBook madridEarly [])) :=
  byClock_of c61_xmad c54_xmad_zone clear_europeMadrid.tame oneTime_daily (by decide)

example : ∃ b w, build (Xmad.exchange.config Zones.europeMadrid) (dayOf 2019 1 1 * DAY) (dayOf 2019 12 31 * DAY) = .ok b ∧
    Reads Zones.europeMadrid (dayOf 2019 10 16 * DAY + hm 7 1) w ∧ b.cal.isOpenOnMinute (dayOf 2019 10 16 * DAY + hm 7 1) = .ok true ∧
    ∃ d, HoursOn Xmad.exchange Zones.europeMadrid (Hours.daily (hm 9 1) (hm 17 30) (EarlyByBook madridEarly []))
      (dayOf 2019 1 1 * DAY) (dayOf 2019 12 31 * DAY) w d :=
  clock_case (d := dayOf 2019 10 16) c64_xmad c54_xmad_zone clear_europeMadrid.tame (by decide) (by decide) <|
    opens_of (o := (hm 9 1)) c61_xmad c54_xmad_zone (rules_of_check xmad_check) (by decide +kernel) (by decide) (by decide)
    (by decide) (fun _ h => h) (by decide +kernel) clear_europeMadrid.tame

/-- C64 for `XMEXExchangeCalendar`. -/
theorem c64_xmex : ByClock Xmex.exchange Zones.americaMexicoCity (dayOf 1700 1 2) []
    (Hours.daily (hm 8 31) (hm 15 0)) :=
  byClock_of c61_xmex c54_xmex_zone clear_americaMexicoCity.tame oneTime_daily (by decide)

example : ∃ b w, build (Xmex.exchange.config Zones.americaMexicoCity) (dayOf 2019 1 1 * DAY) (dayOf 2019 12 31 * DAY) = .ok b ∧
    Reads Zones.americaMexicoCity (dayOf 2019 10 16 * DAY + hm 13 31) w ∧ b.cal.isOpenOnMinute (dayOf 2019 10 16 * DAY + hm 13 31) = .ok true ∧
    ∃ d, HoursOn Xmex.exchange Zones.americaMexicoCity (Hours.daily (hm 8 31) (hm 15 0))
      (dayOf 2019 1 1 * DAY) (dayOf 2019 12 31 * DAY) w d :=
  clock_case (d := dayOf 2019 10 16) c64_xmex c54_xmex_zone clear_americaMexicoCity.tame (by decide) (by decide) <|
    opens_of (o := (hm 8 31)) c61_xmex c54_xmex_zone (rules_of_check xmex_check) (by decide +kernel) (by decide) (by decide)
    (by decide) (fun _ h => h) (by decide +kernel) clear_americaMexicoCity.tame

/-- C64 for `XMILExchangeCalendar`. -/
theorem c64_xmil : ByClock Xmil.exchange Zones.europeRome (dayOf 1700 1 2) []
    (Hours.daily (hm 9 1) (hm 17 30)) :=
  byClock_of c61_xmil c54_xmil_zone clear_europeRome.tame oneTime_daily (by decide)

example : ∃ b w, build (Xmil.exchange.config Zones.europeRome) (dayOf 2019 1 1 * DAY) (dayOf 2019 12 31 * DAY) = .ok b ∧
    Reads Zones.europeRome (dayOf 2019 10 16 * DAY + hm 7 1) w ∧ b.cal.isOpenOnMinute (dayOf 2019 10 16 * DAY + hm 7 1) = .ok true ∧
    ∃ d, HoursOn Xmil.exchange Zones.europeRome (Hours.daily (hm 9 1) (hm 17 30))
      (dayOf 2019 1 1 * DAY) (dayOf 2019 12 31 * DAY) w d :=
  clock_case (d := dayOf 2019 10 16) c64_xmil c54_xmil_zone clear_europeRome.tame (by decide) (by decide) <|
    opens_of (o := (hm 9 1)) c61_xmil c54_xmil_zone (rules_of_check xmil_check) (by decide +kernel) (by decide) (by decide)
    (by decide) (fun _ h => h) (by decide +kernel) clear_europeRome.tame

/-- C64 for `XMOSExchangeCalendar`. -/
theorem c64_xmos : ByClock Xmos.exchange Zones.europeMoscow (dayOf 1700 1 2) []
    (Hours.daily (hm 10 1) (hm 18 45)) :=
  byClock_of c61_xmos c54_xmos_zone clear_europeMoscow.tame oneTime_daily (by decide)

example : ∃ b w, build (Xmos.exchange.config Zones.europeMoscow) (dayOf 2019 1 1 * DAY) (dayOf 2019 12 31 * DAY) = .ok b ∧
    Reads Zones.europeMoscow (dayOf 2019 10 16 * DAY + hm 7 1) w ∧ b.cal.isOpenOnMinute (dayOf 2019 10 16 * DAY + hm 7 1) = .ok true ∧
    ∃ d, HoursOn Xmos.exchange Zones.europeMoscow (Hours.daily (hm 10 1) (hm 18 45))
      (dayOf 2019 1 1 * DAY) (dayOf 2019 12 31 * DAY) w d :=
  clock_case (d := dayOf 2019 10 16) c64_xmos c54_xmos_zone clear_europeMoscow.tame (by decide) (by decide) <|
    opens_of (o := (hm 10 1)) c61_xmos c54_xmos_zone (rules_of_check xmos_check) (by decide +kernel) (by decide) (by decide)
    (by decide) (fun _ h => h) (by decide +kernel) clear_europeMoscow.tame

/-- C64 for `XNYSExchangeCalendar`. -/
theorem c64_xnys : ByClock Xnys.exchange Zones.americaNewYork (dayOf 1901 12 15) [dayOf 1945 12 24, dayOf 1956 12 24]
    (Hours.daily (hm 9 31) (hm 16 0) (EarlyByBook newYorkEarly newYorkSingle)) :=
  byClock_of c61_xnys c54_xnys_zone clear_americaNewYork.tame oneTime_daily (by decide)

example : ∃ b w, build (Xnys.exchange.config Zones.americaNewYork) (dayOf 2019 1 1 * DAY) (dayOf 2019 12 31 * DAY) = .ok b ∧
    Reads Zones.americaNewYork (dayOf 2019 10 16 * DAY + hm 13 31) w ∧ b.cal.isOpenOnMinute (dayOf 2019 10 16 * DAY + hm 13 31) = .ok true ∧
    ∃ d, HoursOn Xnys.exchange Zones.americaNewYork (Hours.daily (hm 9 31) (hm 16 0) (EarlyByBook newYorkEarly newYorkSingle))
      (dayOf 2019 1 1 * DAY) (dayOf 2019 12 31 * DAY) w d :=
  clock_case (d := dayOf 2019 10 16) c64_xnys c54_xnys_zone clear_americaNewYork.tame (by decide) (by decide) <|
    opens_of (o := (hm 9 31)) c61_xnys c54_xnys_zone (rules_of_check xnys_check) (by decide +kernel) (by decide) (by decide)
    (by decide) (fun _ h => h) (by decide +kernel) clear_americaNewYork.tame

/-- C64 for `XNZEExchangeCalendar`. -/
theorem c64_xnze : ByClock Xnze.exchange Zones.nz (dayOf 1901 12 16) []
    (Hours.daily (hm 10 1) (hm 16 45) (EarlyByBook wellingtonEarly [])) :=
  byClock_of c61_xnze c54_xnze_zone clear_nz.tame oneTime_daily (by decide)

example : ∃ b w, build (Xnze.exchange.config Zones.nz) (dayOf 2019 1 1 * DAY) (dayOf 2019 12 31 * DAY) = .ok b ∧
    Reads Zones.nz (dayOf 2019 10 15 * DAY + hm 21 1) w ∧ b.cal.isOpenOnMinute (dayOf 2019 10 15 * DAY + hm 21 1) = .ok true ∧
    ∃ d, HoursOn Xnze.exchange Zones.nz (Hours.daily (hm 10 1) (hm 16 45) (EarlyByBook wellingtonEarly []))
      (dayOf 2019 1 1 * DAY) (dayOf 2019 12 31 * DAY) w d :=
  clock_case (d := dayOf 2019 10 16) c64_xnze c54_xnze_zone clear_nz.tame (by decide) (by decide) <|
    opens_of (o := (hm 10 1)) c61_xnze c54_xnze_zone (rules_of_check xnze_check) (by decide +kernel) (by decide) (by decide)
    (by decide) (fun _ h => h) (by decide +kernel) clear_nz.tame

/-- C64 for `XOSLExchangeCalendar`. -/
theorem c64_xosl : ByClock Xosl.exchange Zones.europeOslo (dayOf 1700 1 2) []
    (Hours.daily (hm 9 1) (hm 16 20) (EarlyByBook osloEarly [])) :=
  byClock_of c61_xosl c54_xosl_zone clear_europeOslo.tame oneTime_daily (by decide)

example : ∃ b w, build (Xosl.exchange.config Zones.europeOslo) (dayOf 2019 1 1 * DAY) (dayOf 2019 12 31 * DAY) = .ok b ∧
    Reads Zones.europeOslo (dayOf 2019 10 16 * DAY + hm 7 1) w ∧ b.cal.isOpenOnMinute (dayOf 2019 10 16 * DAY + hm 7 1) = .ok true ∧
    ∃ d, HoursOn Xosl.exchange Zones.europeOslo (Hours.daily (hm 9 1) (hm 16 20) (EarlyByBook osloEarly []))
      (dayOf 2019 1 1 * DAY) (dayOf 2019 12 31 * DAY) w d :=
  clock_case (d := dayOf 2019 10 16) c64_xosl c54_xosl_zone clear_europeOslo.tame (by decide) (by decide) <|
    opens_of (o := (hm 9 1)) c61_xosl c54_xosl_zone (rules_of_check xosl_check) (by decide +kernel) (by decide) (by decide)
    (by decide) (fun _ h => h) (by decide +kernel) clear_europeOslo.tame

/-- C64 for `XPARExchangeCalendar`. -/
theorem c64_xpar : ByClock Xpar.exchange Zones.europeParis (dayOf 1700 1 2) []
    (Hours.daily (hm 9 1) (hm 17 30) (EarlyByBook euronextEarly [])) :=
  byClock_of c61_xpar c54_xpar_zone clear_europeParis.tame oneTime_daily (by decide)

example : ∃ b w, build (Xpar.exchange.config Zones.europeParis) (dayOf 2019 1 1 * DAY) (dayOf 2019 12 31 * DAY) = .ok b ∧
    Reads Zones.europeParis (dayOf 2019 10 16 * DAY + hm 7 1) w ∧ b.cal.isOpenOnMinute (dayOf 2019 10 16 * DAY + hm 7 1) = .ok true ∧
    ∃ d, HoursOn Xpar.exchange Zones.europeParis (Hours.daily (hm 9 1) (hm 17 30) (EarlyByBook euronextEarly []))
      (dayOf 2019 1 1 * DAY) (dayOf 2019 12 31 * DAY) w d :=
  clock_case (d := dayOf 2019 10 16) c64_xpar c54_xpar_zone clear_europeParis.tame (by decide) (by decide) <|
    opens_of (o := (hm 9 1)) c61_xpar c54_xpar_zone (rules_of_check xpar_check) (by decide +kernel) (by decide) (by decide)
    (by decide) (fun _ h => h) (by decide +kernel) clear_europeParis.tame

/-- C64 for `XPHSExchangeCalendar`. -/
theorem c64_xphs : ByClock Xphs.exchange Zones.asiaManila (dayOf 1901 12 15) []
    (Hours.daily (hm 9 31) (hm 15 30)) :=
  byClock_of c61_xphs c54_xphs_zone clear_asiaManila.tame oneTime_daily (by decide)

example : ∃ b w, build (Xphs.exchange.config Zones.asiaManila) (dayOf 2019 1 1 * DAY) (dayOf 2019 12 31 * DAY) = .ok b ∧
    Reads Zones.asiaManila (dayOf 2019 10 16 * DAY + hm 1 31) w ∧ b.cal.isOpenOnMinute (dayOf 2019 10 16 * DAY + hm 1 31) = .ok true ∧
    ∃ d, HoursOn Xphs.exchange Zones.asiaManila (Hours.daily (hm 9 31) (hm 15 30))
      (dayOf 2019 1 1 * DAY) (dayOf 2019 12 31 * DAY) w d :=
  clock_case (d := dayOf 2019 10 16) c64_xphs c54_xphs_zone clear_asiaManila.tame (by decide) (by decide) <|
    opens_of (o := (hm 9 31)) c61_xphs c54_xphs_zone (rules_of_check xphs_check) (by decide +kernel) (by decide) (by decide)
    (by decide) (fun _ h => h) (by decide +kernel) clear_asiaManila.tame

/-- C64 for `XPRAExchangeCalendar`. -/
theorem c64_xpra : ByClock Xpra.exchange Zones.europePrague (dayOf 1700 1 2) []
    (Hours.daily (hm 9 1) (hm 16 20)) :=
  byClock_of c61_xpra c54_xpra_zone clear_europePrague.tame oneTime_daily (by decide)

example : ∃ b w, build (Xpra.exchange.config Zones.europePrague) (dayOf 2019 1 1 * DAY) (dayOf 2019 12 31 * DAY) = .ok b ∧
    Reads Zones.europePrague (dayOf 2019 10 16 * DAY + hm 7 1) w ∧ b.cal.isOpenOnMinute (dayOf 2019 10 16 * DAY + hm 7 1) = .ok true ∧
    ∃ d, HoursOn Xpra.exchange Zones.europePrague (Hours.daily (hm 9 1) (hm 16 20))
      (dayOf 2019 1 1 * DAY) (dayOf 2019 12 31 * DAY) w d :=
  clock_case (d := dayOf 2019 10 16) c64_xpra c54_xpra_zone clear_europePrague.tame (by decide) (by decide) <|
    opens_of (o := (hm 9 1)) c61_xpra c54_xpra_zone (rules_of_check xpra_check) (by decide +kernel) (by decide) (by decide)
    (by decide) (fun _ h => h) (by decide +kernel) clear_europePrague.tame

/-- C64 for `XSESExchangeCalendar`. -/
theorem c64_xses : ByClock Xses.exchange Zones.asiaSingapore (dayOf 1700 1 2) []
    (Hours.daily (hm 9 1) (hm 17 0)) :=
  byClock_of c61_xses c54_xses_zone clear_asiaSingapore.tame oneTime_daily (by decide)

example : ∃ b w, build (Xses.exchange.config Zones.asiaSingapore) (dayOf 2019 1 1 * DAY) (dayOf 2019 12 31 * DAY) = .ok b ∧
    Reads Zones.asiaSingapore (dayOf 2019 10 16 * DAY + hm 1 1) w ∧ b.cal.isOpenOnMinute (dayOf 2019 10 16 * DAY + hm 1 1) = .ok true ∧
    ∃ d, HoursOn Xses.exchange Zones.asiaSingapore (Hours.daily (hm 9 1) (hm 17 0))
      (dayOf 2019 1 1 * DAY) (dayOf 2019 12 31 * DAY) w d :=
  clock_case (d := dayOf 2019 10 16) c64_xses c54_xses_zone clear_asiaSingapore.tame (by decide) (by decide) <|
    opens_of (o := (hm 9 1)) c61_xses c54_xses_zone (rules_of_check xses_check) (by decide +kernel) (by decide) (by decide)
    (by decide) (fun _ h => h) (by decide +kernel) clear_asiaSingapore.tame

/-- C64 for `XSGOExchangeCalendar`. -/
theorem c64_xsgo : ByClock Xsgo.exchange Zones.americaSantiago (dayOf 1700 1 2) []
    Hours.santiago :=
  byClock_of c61_xsgo c54_xsgo_zone clear_americaSantiago.tame ⟨by rintro d t t' rfl rfl; rfl, santiago_unique, fun _ h => by cases h⟩ (by decide)

example : ∃ b w, build (Xsgo.exchange.config Zones.americaSantiago) (dayOf 2019 1 1 * DAY) (dayOf 2019 12 31 * DAY) = .ok b ∧
    Reads Zones.americaSantiago (dayOf 2019 10 16 * DAY + hm 12 31) w ∧ b.cal.isOpenOnMinute (dayOf 2019 10 16 * DAY + hm 12 31) = .ok true ∧
    ∃ d, HoursOn Xsgo.exchange Zones.americaSantiago Hours.santiago
      (dayOf 2019 1 1 * DAY) (dayOf 2019 12 31 * DAY) w d :=
  clock_case (d := dayOf 2019 10 16) c64_xsgo c54_xsgo_zone clear_americaSantiago.tame (by decide) (by decide) <|
    opens_of (o := (hm 9 31)) c61_xsgo c54_xsgo_zone (rules_of_check xsgo_check) (by decide +kernel) (by decide) (by decide)
    (by decide) (fun _ h => h) (by decide +kernel) clear_americaSantiago.tame

/-- C64 for `XSHGExchangeCalendar`. -/
theorem c64_xshg : ByClock Xshg.exchange Zones.asiaShanghai (dayOf 1700 1 2) []
    (Hours.daily (hm 9 31) (hm 15 0)) :=
  byClock_of c61_xshg c54_xshg_zone clear_asiaShanghai.tame oneTime_daily (by decide)

example : ∃ b w, build (Xshg.exchange.config Zones.asiaShanghai) (dayOf 2019 1 1 * DAY) (dayOf 2019 12 31 * DAY) = .ok b ∧
    Reads Zones.asiaShanghai (dayOf 2019 10 16 * DAY + hm 1 31) w ∧ b.cal.isOpenOnMinute (dayOf 2019 10 16 * DAY + hm 1 31) = .ok true ∧
    ∃ d, HoursOn Xshg.exchange Zones.asiaShanghai (Hours.daily (hm 9 31) (hm 15 0))
      (dayOf 2019 1 1 * DAY) (dayOf 2019 12 31 * DAY) w d :=
  clock_case (d := dayOf 2019 10 16) c64_xshg c54_xshg_zone clear_asiaShanghai.tame (by decide) (by decide) <|
    opens_of (o := (hm 9 31)) c61_xshg c54_xshg_zone (rules_of_check xshg_check) (by decide +kernel) (by decide) (by decide)
    (by decide) (fun _ h => h) (by decide +kernel) clear_asiaShanghai.tame

/-- C64 for `XSTOExchangeCalendar`. -/
theorem c64_xsto : ByClock Xsto.exchange Zones.europeStockholm (dayOf 1700 1 2) []
    (Hours.daily (hm 9 1) (hm 17 30) (EarlyByBook stockholmEarly [])) :=
  byClock_of c61_xsto c54_xsto_zone clear_europeStockholm.tame oneTime_daily (by decide)

example : ∃ b w, build (Xsto.exchange.config Zones.europeStockholm) (dayOf 2019 1 1 * DAY) (dayOf 2019 12 31 * DAY) = .ok b ∧
    Reads Zones.europeStockholm (dayOf 2019 10 16 * DAY + hm 7 1) w ∧ b.cal.isOpenOnMinute (dayOf 2019 10 16 * DAY + hm 7 1) = .ok true ∧
    ∃ d, HoursOn Xsto.exchange Zones.europeStockholm (Hours.daily (hm 9 1) (hm 17 30) (EarlyByBook stockholmEarly []))
      (dayOf 2019 1 1 * DAY) (dayOf 2019 12 31 * DAY) w d :=
  clock_case (d := dayOf 2019 10 16) c64_xsto c54_xsto_zone clear_europeStockholm.tame (by decide) (by decide) <|
    opens_of (o := (hm 9 1)) c61_xsto c54_xsto_zone (rules_of_check xsto_check) (by decide +kernel) (by decide) (by decide)
    (by decide) (fun _ h => h) (by decide +kernel) clear_europeStockholm.tame

/-- C64 for `XSWXExchangeCalendar`. -/
theorem c64_xswx : ByClock Xswx.exchange Zones.europeZurich (dayOf 1700 1 2) []
    (Hours.daily (hm 9 1) (hm 17 30)) :=
  byClock_of c61_xswx c54_xswx_zone clear_europeZurich.tame oneTime_daily (by decide)

example : ∃ b w, build (Xswx.exchange.config Zones.europeZurich) (dayOf 2019 1 1 * DAY) (dayOf 2019 12 31 * DAY) = .ok b ∧
    Reads Zones.europeZurich (dayOf 2019 10 16 * DAY + hm 7 1) w ∧ b.cal.isOpenOnMinute (dayOf 2019 10 16 * DAY + hm 7 1) = .ok true ∧
    ∃ d, HoursOn Xswx.exchange Zones.europeZurich (Hours.daily (hm 9 1) (hm 17 30))
      (dayOf 2019 1 1 * DAY) (dayOf 2019 12 31 * DAY) w d :=
  clock_case (d := dayOf 2019 10 16) c64_xswx c54_xswx_zone clear_europeZurich.tame (by decide) (by decide) <|
    opens_of (o := (hm 9 1)) c61_xswx c54_xswx_zone (rules_of_check xswx_check) (by decide +kernel) (by decide) (by decide)
    (by decide) (fun _ h => h) (by decide +kernel) clear_europeZurich.tame

/-- C64 for `XTAEExchangeCalendar`. -/
theorem c64_xtae : ByClock Xtae.exchange Zones.asiaTelAviv (dayOf 1700 1 2) []
    (Hours.daily (hm 10 0) (hm 17 15)) :=
  byClock_of c61_xtae c54_xtae_zone clear_asiaTelAviv.tame oneTime_daily (by decide)

example : ∃ b w, build (Xtae.exchange.config Zones.asiaTelAviv) (dayOf 2019 1 1 * DAY) (dayOf 2019 12 31 * DAY) = .ok b ∧
    Reads Zones.asiaTelAviv (dayOf 2019 10 16 * DAY + hm 7 0) w ∧ b.cal.isOpenOnMinute (dayOf 2019 10 16 * DAY + hm 7 0) = .ok true ∧
    ∃ d, HoursOn Xtae.exchange Zones.asiaTelAviv (Hours.daily (hm 10 0) (hm 17 15))
      (dayOf 2019 1 1 * DAY) (dayOf 2019 12 31 * DAY) w d :=
  clock_case (d := dayOf 2019 10 16) c64_xtae c54_xtae_zone clear_asiaTelAviv.tame (by decide) (by decide) <|
    opens_of (o := (hm 10 0)) c61_xtae c54_xtae_zone xtae_good (by decide +kernel) (by decide) (by decide)
    (by decide) (fun _ h => h) (by decide +kernel) clear_asiaTelAviv.tame

/-- C64 for `XTAIExchangeCalendar`. -/
theorem c64_xtai : ByClock Xtai.exchange Zones.asiaTaipei (dayOf 1700 1 2) []
    (Hours.daily (hm 9 1) (hm 13 30)) :=
  byClock_of c61_xtai c54_xtai_zone clear_asiaTaipei.tame oneTime_daily (by decide)

example : ∃ b w, build (Xtai.exchange.config Zones.asiaTaipei) (dayOf 2019 1 1 * DAY) (dayOf 2019 12 31 * DAY) = .ok b ∧
    Reads Zones.asiaTaipei (dayOf 2019 10 16 * DAY + hm 1 1) w ∧ b.cal.isOpenOnMinute (dayOf 2019 10 16 * DAY + hm 1 1) = .ok true ∧
    ∃ d, HoursOn Xtai.exchange Zones.asiaTaipei (Hours.daily (hm 9 1) (hm 13 30))
      (dayOf 2019 1 1 * DAY) (dayOf 2019 12 31 * DAY) w d :=
  clock_case (d := dayOf 2019 10 16) c64_xtai c54_xtai_zone clear_asiaTaipei.tame (by decide) (by decide) <|
    opens_of (o := (hm 9 1)) c61_xtai c54_xtai_zone (rules_of_check xtai_check) (by decide +kernel) (by decide) (by decide)
    (by decide) (fun _ h => h) (by decide +kernel) clear_asiaTaipei.tame

/-- C64 for `XTKSExchangeCalendar`. -/
theorem c64_xtks : ByClock Xtks.exchange Zones.asiaTokyo (dayOf 1700 1 2) []
    (Hours.daily (hm 9 1) (hm 15 0)) :=
  byClock_of c61_xtks c54_xtks_zone clear_asiaTokyo.tame oneTime_daily (by decide)

example : ∃ b w, build (Xtks.exchange.config Zones.asiaTokyo) (dayOf 2019 1 1 * DAY) (dayOf 2019 12 31 * DAY) = .ok b ∧
    Reads Zones.asiaTokyo (dayOf 2019 10 16 * DAY + hm 0 1) w ∧ b.cal.isOpenOnMinute (dayOf 2019 10 16 * DAY + hm 0 1) = .ok true ∧
    ∃ d, HoursOn Xtks.exchange Zones.asiaTokyo (Hours.daily (hm 9 1) (hm 15 0))
      (dayOf 2019 1 1 * DAY) (dayOf 2019 12 31 * DAY) w d :=
  clock_case (d := dayOf 2019 10 16) c64_xtks c54_xtks_zone clear_asiaTokyo.tame (by decide) (by decide) <|
    opens_of (o := (hm 9 1)) c61_xtks c54_xtks_zone (rules_of_check xtks_check) (by decide +kernel) (by decide) (by decide)
    (by decide) (fun _ h => h) (by decide +kernel) clear_asiaTokyo.tame

/-- C64 for `XTSEExchangeCalendar`. -/
theorem c64_xtse : ByClock Xtse.exchange Zones.americaToronto (dayOf 1901 12 15) []
    (Hours.daily (hm 9 31) (hm 16 0) (EarlyByBook torontoEarly [])) :=
  byClock_of c61_xtse c54_xtse_zone clear_americaToronto.tame oneTime_daily (by decide)

example : ∃ b w, build (Xtse.exchange.config Zones.americaToronto) (dayOf 2019 1 1 * DAY) (dayOf 2019 12 31 * DAY) = .ok b ∧
    Reads Zones.americaToronto (dayOf 2019 10 16 * DAY + hm 13 31) w ∧ b.cal.isOpenOnMinute (dayOf 2019 10 16 * DAY + hm 13 31) = .ok true ∧
    ∃ d, HoursOn Xtse.exchange Zones.americaToronto (Hours.daily (hm 9 31) (hm 16 0) (EarlyByBook torontoEarly []))
      (dayOf 2019 1 1 * DAY) (dayOf 2019 12 31 * DAY) w d :=
  clock_case (d := dayOf 2019 10 16) c64_xtse c54_xtse_zone clear_americaToronto.tame (by decide) (by decide) <|
    opens_of (o := (hm 9 31)) c61_xtse c54_xtse_zone (rules_of_check xtse_check) (by decide +kernel) (by decide) (by decide)
    (by decide) (fun _ h => h) (by decide +kernel) clear_americaToronto.tame

/-- C64 for `XWARExchangeCalendar`. -/
theorem c64_xwar : ByClock Xwar.exchange Zones.europeWarsaw (dayOf 1700 1 2) []
    (Hours.daily (hm 9 1) (hm 17 0)) :=
  byClock_of c61_xwar c54_xwar_zone clear_europeWarsaw.tame oneTime_daily (by decide)

example : ∃ b w, build (Xwar.exchange.config Zones.europeWarsaw) (dayOf 2019 1 1 * DAY) (dayOf 2019 12 31 * DAY) = .ok b ∧
    Reads Zones.europeWarsaw (dayOf 2019 10 16 * DAY + hm 7 1) w ∧ b.cal.isOpenOnMinute (dayOf 2019 10 16 * DAY + hm 7 1) = .ok true ∧
    ∃ d, HoursOn Xwar.exchange Zones.europeWarsaw (Hours.daily (hm 9 1) (hm 17 0))
      (dayOf 2019 1 1 * DAY) (dayOf 2019 12 31 * DAY) w d :=
  clock_case (d := dayOf 2019 10 16) c64_xwar c54_xwar_zone clear_europeWarsaw.tame (by decide) (by decide) <|
    opens_of (o := (hm 9 1)) c61_xwar c54_xwar_zone (rules_of_check xwar_check) (by decide +kernel) (by decide) (by decide)
    (by decide) (fun _ h => h) (by decide +kernel) clear_europeWarsaw.tame

/-- C64 for `XWBOExchangeCalendar`. -/
theorem c64_xwbo : ByClock Xwbo.exchange Zones.europeVienna (dayOf 1700 1 2) []
    (Hours.daily (hm 9 1) (hm 17 30)) :=
  byClock_of c61_xwbo c54_xwbo_zone clear_europeVienna.tame oneTime_daily (by decide)

example : ∃ b w, build (Xwbo.exchange.config Zones.europeVienna) (dayOf 2019 1 1 * DAY) (dayOf 2019 12 31 * DAY) = .ok b ∧
    Reads Zones.europeVienna (dayOf 2019 10 16 * DAY + hm 7 1) w ∧ b.cal.isOpenOnMinute (dayOf 2019 10 16 * DAY + hm 7 1) = .ok true ∧
    ∃ d, HoursOn Xwbo.exchange Zones.europeVienna (Hours.daily (hm 9 1) (hm 17 30))
      (dayOf 2019 1 1 * DAY) (dayOf 2019 12 31 * DAY) w d :=
  clock_case (d := dayOf 2019 10 16) c64_xwbo c54_xwbo_zone clear_europeVienna.tame (by decide) (by decide) <|
    opens_of (o := (hm 9 1)) c61_xwbo c54_xwbo_zone (rules_of_check xwbo_check) (by decide +kernel) (by decide) (by decide)
    (by decide) (fun _ h => h) (by decide +kernel) clear_europeVienna.tame

end TC.Props
