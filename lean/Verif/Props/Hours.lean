import Verif.Lemmas.Hours
import Verif.Props.Exchanges1
import Verif.Props.Exchanges2
import Verif.Props.Exchanges3
import Verif.Props.Exchanges4
import Verif.Props.Hebrew

/-!
# Early closes (C60) and trading hours (C61)

C60: the early closes of each exchange, in any year, are those of its list (`Spec.Hours`, `Spec.Feasts`).
C61: every calendar keeps the documented hours in the time zone of its city; each theorem is followed by a
case, the opening instant of 2019-10-16 in UTC.
-/

namespace TC.Props
open Spec Spec.Books Spec.Hours

set_option maxRecDepth 100000

/-- C60 for `CMESExchangeCalendar`. -/
theorem c60_cmes : ClosesEarlyBy Cmes.exchange cmeEarly [] :=
  early_of (by decide +kernel) (by decide +kernel)

example : ClosesEarly Cmes.exchange (dayOf 2019 12 24) (hm 12 0) :=
  early_case cmes_check (by decide +kernel)

/-- C60 for `IEPAExchangeCalendar`. -/
theorem c60_iepa : ClosesEarlyBy Iepa.exchange iceEarly [] :=
  early_of (by decide +kernel) (by decide +kernel)

example : ClosesEarly Iepa.exchange (dayOf 2019 7 4) (hm 13 0) :=
  early_case iepa_check (by decide +kernel)

/-- C60 for `XAMSExchangeCalendar`. -/
theorem c60_xams : ClosesEarlyBy Xams.exchange euronextEarly [] :=
  early_of (by decide +kernel) (by decide +kernel)

example : ClosesEarly Xams.exchange (dayOf 2019 12 24) (hm 14 5) :=
  early_case xams_check (by decide +kernel)

/-- C60 for `XASXExchangeCalendar`. -/
theorem c60_xasx : ClosesEarlyBy Xasx.exchange sydneyEarly [] :=
  early_of (by decide +kernel) (by decide +kernel)

example : ClosesEarly Xasx.exchange (dayOf 2019 12 24) (hm 14 10) :=
  early_case xasx_check (by decide +kernel)

/-- C60 for `XBRUExchangeCalendar`. -/
theorem c60_xbru : ClosesEarlyBy Xbru.exchange euronextEarly [] :=
  early_of (by decide +kernel) (by decide +kernel)

example : ClosesEarly Xbru.exchange (dayOf 2019 12 24) (hm 14 5) :=
  early_case xbru_check (by decide +kernel)

/-- C60 for `XBUEExchangeCalendar`. -/
theorem c60_xbue : ClosesEarlyBy Xbue.exchange buenosAiresEarly [] :=
  early_of (by decide +kernel) (by decide +kernel)

example : ClosesEarly Xbue.exchange (dayOf 2019 12 24) (hm 13 0) :=
  early_case xbue_check (by decide +kernel)

/-- C60 for `XCBFExchangeCalendar`. -/
theorem c60_xcbf : ClosesEarlyBy Xcbf.exchange cboeEarly [] :=
  early_of (by decide +kernel) (by decide +kernel)

example : ClosesEarly Xcbf.exchange (dayOf 2019 11 29) (hm 12 15) :=
  early_case xcbf_check (by decide +kernel)

/-- C60 for `XDUBExchangeCalendar`. -/
theorem c60_xdub : ClosesEarlyBy Xdub.exchange dublinEarly dublinSingle :=
  early_of (by decide +kernel) (by decide +kernel)

example : ClosesEarly Xdub.exchange (dayOf 2019 12 24) (hm 12 28) :=
  early_case xdub_check (by decide +kernel)

/-- C60 for `XETRExchangeCalendar`. -/
theorem c60_xetr : ClosesEarlyBy Xetr.exchange xetraEarly [] :=
  early_of (by decide +kernel) (by decide +kernel)

example : ClosesEarly Xetr.exchange (dayOf 2019 12 30) (hm 14 0) :=
  early_case xetr_check (by decide +kernel)

/-- C60 for `XFRAExchangeCalendar`. -/
theorem c60_xfra : ClosesEarlyBy Xfra.exchange frankfurtEarly [] :=
  early_of (by decide +kernel) (by decide +kernel)

example : ClosesEarly Xfra.exchange (dayOf 2019 12 30) (hm 12 30) :=
  early_case xfra_check (by decide +kernel)

/-- C60 for `XHKGExchangeCalendar`. -/
theorem c60_xhkg : ClosesEarlyForFeasts Xhkg.exchange hongKongEarly hongKongEves [] :=
  earlyFeasts_of (by decide +kernel) (by decide +kernel)

example : ClosesEarly Xhkg.exchange (dayOf 2019 12 24) (hm 12 0) :=
  early_case xhkg_check (by decide +kernel)

/-- C60 for `XISTExchangeCalendar`. -/
theorem c60_xist : ClosesEarlyForFeasts Xist.exchange istanbulEarly istanbulEves istanbulFullEves :=
  earlyFeasts_of (by decide +kernel) (by decide +kernel)

example : ClosesEarly Xist.exchange (dayOf 2019 10 28) (hm 12 30) :=
  early_case xist_check (by decide +kernel)

/-- C60 for `XKLSExchangeCalendar`. -/
theorem c60_xkls : ClosesEarlyForFeasts Xkls.exchange [] kualaLumpurEves kualaLumpurFullEves :=
  earlyFeasts_of (by decide +kernel) (by decide +kernel)

example : ClosesEarly Xkls.exchange (dayOf 2019 2 4) (hm 12 30) :=
  early_case xkls_check (by decide +kernel)

/-- C60 for `XLISExchangeCalendar`. -/
theorem c60_xlis : ClosesEarlyBy Xlis.exchange lisbonEarly [] :=
  early_of (by decide +kernel) (by decide +kernel)

example : ClosesEarly Xlis.exchange (dayOf 2019 12 24) (hm 13 5) :=
  early_case xlis_check (by decide +kernel)

/-- C60 for `XLONExchangeCalendar`. -/
theorem c60_xlon : ClosesEarlyBy Xlon.exchange londonEarly [] :=
  early_of (by decide +kernel) (by decide +kernel)

example : ClosesEarly Xlon.exchange (dayOf 2019 12 24) (hm 12 30) :=
  early_case xlon_check (by decide +kernel)

/-- C60 for `XMADExchangeCalendar`. -/
theorem c60_xmad : ClosesEarlyBy Xmad.exchange madridEarly [] :=
  early_of (by decide +kernel) (by decide +kernel)

example : ClosesEarly Xmad.exchange (dayOf 2019 12 24) (hm 14 0) :=
  early_case xmad_check (by decide +kernel)

/-- C60 for `XNYSExchangeCalendar`. -/
theorem c60_xnys : ClosesEarlyBy Xnys.exchange newYorkEarly newYorkSingle :=
  early_of (by decide +kernel) (by decide +kernel)

example : ClosesEarly Xnys.exchange (dayOf 2019 12 24) (hm 13 0) :=
  early_case xnys_check (by decide +kernel)

/-- C60 for `XNZEExchangeCalendar`. -/
theorem c60_xnze : ClosesEarlyBy Xnze.exchange wellingtonEarly [] :=
  early_of (by decide +kernel) (by decide +kernel)

example : ClosesEarly Xnze.exchange (dayOf 2019 12 24) (hm 12 45) :=
  early_case xnze_check (by decide +kernel)

/-- C60 for `XOSLExchangeCalendar`. -/
theorem c60_xosl : ClosesEarlyBy Xosl.exchange osloEarly [] :=
  early_of (by decide +kernel) (by decide +kernel)

example : ClosesEarly Xosl.exchange (dayOf 2019 4 17) (hm 13 0) :=
  early_case xosl_check (by decide +kernel)

/-- C60 for `XPARExchangeCalendar`. -/
theorem c60_xpar : ClosesEarlyBy Xpar.exchange euronextEarly [] :=
  early_of (by decide +kernel) (by decide +kernel)

example : ClosesEarly Xpar.exchange (dayOf 2019 12 24) (hm 14 5) :=
  early_case xpar_check (by decide +kernel)

/-- C60 for `XSGOExchangeCalendar`. -/
theorem c60_xsgo : ClosesEarlyBy Xsgo.exchange santiagoEarly [] :=
  early_of (by decide +kernel) (by decide +kernel)

example : ClosesEarly Xsgo.exchange (dayOf 2019 12 24) (hm 12 30) :=
  early_case xsgo_check (by decide +kernel)

/-- C60 for `XSTOExchangeCalendar`. -/
theorem c60_xsto : ClosesEarlyBy Xsto.exchange stockholmEarly [] :=
  early_of (by decide +kernel) (by decide +kernel)

example : ClosesEarly Xsto.exchange (dayOf 2019 4 30) (hm 13 0) :=
  early_case xsto_check (by decide +kernel)

/-- C60 for `XTSEExchangeCalendar`. -/
theorem c60_xtse : ClosesEarlyBy Xtse.exchange torontoEarly [] :=
  early_of (by decide +kernel) (by decide +kernel)

example : ClosesEarly Xtse.exchange (dayOf 2019 12 24) (hm 13 0) :=
  early_case xtse_check (by decide +kernel)

/-! ### The closing times of Santiago -/

theorem santiago_closes (d t : Int) (h : TimeInEffect Xsgo.exchange.closeTimes (d * DAY) t) :
    Hours.santiago.closes d (0 * DAY + t) := by
  have hx : DayNumber (toDate d) d := (dayNumber_iff _ _).2 ⟨toDate_valid d, dayOf_toDate d⟩
  have := (santiago_table (2050 - 1980) hx t).1 h
  refine ⟨_, _, _, hx, ?_⟩
  rw [show 0 * DAY + t = t by omega]
  exact this

/-- C61 for `ASEXExchangeCalendar`. -/
theorem c61_asex : KeepsHours Asex.exchange Zones.europeAthens (dayOf 1979 4 3) [] Hours.athens :=
  hours_of c54_asex_zone (never_early rfl rfl) (always_of rfl) (changed_of (by decide) rfl) rfl rfl

example : OpensAt Asex.exchange Zones.europeAthens (dayOf 2019 10 16) (dayOf 2019 10 16 * DAY + hm 7 1) :=
  opens_of (o := (hm 10 1)) c61_asex c54_asex_zone (rules_of_check asex_check) (by decide +kernel) (by decide) (by decide)
    (by decide) (fun _ h => h) (by decide +kernel) clear_europeAthens.tame

/-- C61 for `BVMFExchangeCalendar`. -/
theorem c61_bvmf : KeepsHours Bvmf.exchange Zones.americaSaoPaulo (dayOf 1931 10 5) [] Hours.saoPaulo :=
  hours_of c54_bvmf_zone (never_early rfl rfl) (always_of rfl) (changed_of (by decide) rfl) rfl rfl

example : OpensAt Bvmf.exchange Zones.americaSaoPaulo (dayOf 2019 10 16) (dayOf 2019 10 16 * DAY + hm 13 1) :=
  opens_of (o := (hm 10 1)) c61_bvmf c54_bvmf_zone (rules_of_check bvmf_check) (by decide +kernel) (by decide) (by decide)
    (by decide) (fun _ h => h) (by decide +kernel) clear_americaSaoPaulo.tame

/-- C61 for `CMESExchangeCalendar`. -/
theorem c61_cmes : KeepsHours Cmes.exchange Zones.americaChicago (dayOf 1901 12 15) [] Hours.cme :=
  daily_of c54_cmes_zone c60_cmes rfl rfl rfl rfl rfl

example : OpensAt Cmes.exchange Zones.americaChicago (dayOf 2019 10 16) (dayOf 2019 10 15 * DAY + hm 22 1) :=
  opens_of (o := (hm 17 1 - DAY)) c61_cmes c54_cmes_zone (rules_of_check cmes_check) (by decide +kernel) (by decide) (by decide)
    (by decide) (fun _ h => h) (by decide +kernel) clear_americaChicago.tame

/-- C61 for `IEPAExchangeCalendar`. -/
theorem c61_iepa : KeepsHours Iepa.exchange Zones.americaNewYork (dayOf 1901 12 15) [] Hours.ice :=
  daily_of c54_iepa_zone c60_iepa rfl rfl rfl rfl rfl

example : OpensAt Iepa.exchange Zones.americaNewYork (dayOf 2019 10 16) (dayOf 2019 10 16 * DAY + hm 0 1) :=
  opens_of (o := (hm 20 1 - DAY)) c61_iepa c54_iepa_zone (rules_of_check iepa_check) (by decide +kernel) (by decide) (by decide)
    (by decide) (fun _ h => h) (by decide +kernel) clear_americaNewYork.tame

/-- C61 for `QuantopianUSFuturesCalendar`. -/
theorem c61_usFuturesCalendar :
    KeepsHours UsFuturesCalendar.exchange Zones.americaNewYork (dayOf 1901 12 15) []
      Hours.usFutures :=
  daily_of c54_usFuturesCalendar_zone (never_early rfl rfl) rfl rfl rfl rfl rfl

example : OpensAt UsFuturesCalendar.exchange Zones.americaNewYork (dayOf 2019 10 16) (dayOf 2019 10 15 * DAY + hm 22 1) :=
  opens_of (o := (hm 18 1 - DAY)) c61_usFuturesCalendar c54_usFuturesCalendar_zone (rules_of_check usFuturesCalendar_check) (by decide +kernel) (by decide) (by decide)
    (by decide) (fun _ h => h) (by decide +kernel) clear_americaNewYork.tame

/-- C61 for `XAMSExchangeCalendar`. -/
theorem c61_xams :
    KeepsHours Xams.exchange Zones.europeAmsterdam (dayOf 1700 1 2) []
      (Hours.daily (hm 9 1) (hm 17 30) (EarlyByBook euronextEarly [])) :=
  daily_of c54_xams_zone c60_xams rfl rfl rfl rfl rfl

example : OpensAt Xams.exchange Zones.europeAmsterdam (dayOf 2019 10 16) (dayOf 2019 10 16 * DAY + hm 7 1) :=
  opens_of (o := (hm 9 1)) c61_xams c54_xams_zone (rules_of_check xams_check) (by decide +kernel) (by decide) (by decide)
    (by decide) (fun _ h => h) (by decide +kernel) clear_europeAmsterdam.tame

/-- C61 for `XASXExchangeCalendar`. -/
theorem c61_xasx :
    KeepsHours Xasx.exchange Zones.australiaSydney (dayOf 1700 1 2) []
      (Hours.daily (hm 10 1) (hm 16 0) (EarlyByBook sydneyEarly [])) :=
  daily_of c54_xasx_zone c60_xasx rfl rfl rfl rfl rfl

example : OpensAt Xasx.exchange Zones.australiaSydney (dayOf 2019 10 16) (dayOf 2019 10 15 * DAY + hm 23 1) :=
  opens_of (o := (hm 10 1)) c61_xasx c54_xasx_zone (rules_of_check xasx_check) (by decide +kernel) (by decide) (by decide)
    (by decide) (fun _ h => h) (by decide +kernel) clear_australiaSydney.tame

/-- C61 for `XBKKExchangeCalendar`. -/
theorem c61_xbkk :
    KeepsHours Xbkk.exchange Zones.asiaBangkok (dayOf 1700 1 2) []
      (Hours.daily (hm 10 1) (hm 16 30)) :=
  daily_of c54_xbkk_zone (never_early rfl rfl) rfl rfl rfl rfl rfl

example : OpensAt Xbkk.exchange Zones.asiaBangkok (dayOf 2019 10 16) (dayOf 2019 10 16 * DAY + hm 3 1) :=
  opens_of (o := (hm 10 1)) c61_xbkk c54_xbkk_zone (rules_of_check xbkk_check) (by decide +kernel) (by decide) (by decide)
    (by decide) (fun _ h => h) (by decide +kernel) clear_asiaBangkok.tame

/-- C61 for `XBOGExchangeCalendar`. -/
theorem c61_xbog :
    KeepsHours Xbog.exchange Zones.americaNewYork (dayOf 1901 12 15) []
      (Hours.daily (hm 9 31) (hm 16 0)) :=
  daily_of c54_xbog_zone (never_early rfl rfl) rfl rfl rfl rfl rfl

example : OpensAt Xbog.exchange Zones.americaNewYork (dayOf 2019 10 16) (dayOf 2019 10 16 * DAY + hm 13 31) :=
  opens_of (o := (hm 9 31)) c61_xbog c54_xbog_zone (rules_of_check xbog_check) (by decide +kernel) (by decide) (by decide)
    (by decide) (fun _ h => h) (by decide +kernel) clear_americaNewYork.tame

/-- C61 for `XBOMExchangeCalendar`. -/
theorem c61_xbom :
    KeepsHours Xbom.exchange Zones.asiaCalcutta (dayOf 1700 1 2) []
      (Hours.daily (hm 9 16) (hm 15 30)) :=
  daily_of c54_xbom_zone (never_early rfl rfl) rfl rfl rfl rfl rfl

example : OpensAt Xbom.exchange Zones.asiaCalcutta (dayOf 2019 10 16) (dayOf 2019 10 16 * DAY + hm 3 46) :=
  opens_of (o := (hm 9 16)) c61_xbom c54_xbom_zone (rules_of_check xbom_check) (by decide +kernel) (by decide) (by decide)
    (by decide) (fun _ h => h) (by decide +kernel) clear_asiaCalcutta.tame

/-- C61 for `XBRUExchangeCalendar`. -/
theorem c61_xbru :
    KeepsHours Xbru.exchange Zones.europeBrussels (dayOf 1918 11 13) []
      (Hours.daily (hm 9 1) (hm 17 30) (EarlyByBook euronextEarly [])) :=
  daily_of c54_xbru_zone c60_xbru rfl rfl rfl rfl rfl

example : OpensAt Xbru.exchange Zones.europeBrussels (dayOf 2019 10 16) (dayOf 2019 10 16 * DAY + hm 7 1) :=
  opens_of (o := (hm 9 1)) c61_xbru c54_xbru_zone (rules_of_check xbru_check) (by decide +kernel) (by decide) (by decide)
    (by decide) (fun _ h => h) (by decide +kernel) clear_europeBrussels.tame

/-- C61 for `XBUDExchangeCalendar`. -/
theorem c61_xbud :
    KeepsHours Xbud.exchange Zones.europeBudapest (dayOf 1700 1 2) []
      (Hours.daily (hm 9 1) (hm 17 0)) :=
  daily_of c54_xbud_zone (never_early rfl rfl) rfl rfl rfl rfl rfl

example : OpensAt Xbud.exchange Zones.europeBudapest (dayOf 2019 10 16) (dayOf 2019 10 16 * DAY + hm 7 1) :=
  opens_of (o := (hm 9 1)) c61_xbud c54_xbud_zone (rules_of_check xbud_check) (by decide +kernel) (by decide) (by decide)
    (by decide) (fun _ h => h) (by decide +kernel) clear_europeBudapest.tame

/-- C61 for `XBUEExchangeCalendar`. -/
theorem c61_xbue :
    KeepsHours Xbue.exchange Zones.americaArgentinaBuenosAires (dayOf 1901 12 15) []
      (Hours.daily (hm 11 1) (hm 17 0) (EarlyByBook buenosAiresEarly [])) :=
  daily_of c54_xbue_zone c60_xbue rfl rfl rfl rfl rfl

example : OpensAt Xbue.exchange Zones.americaArgentinaBuenosAires (dayOf 2019 10 16) (dayOf 2019 10 16 * DAY + hm 14 1) :=
  opens_of (o := (hm 11 1)) c61_xbue c54_xbue_zone (rules_of_check xbue_check) (by decide +kernel) (by decide) (by decide)
    (by decide) (fun _ h => h) (by decide +kernel) clear_americaArgentinaBuenosAires.tame

/-- C61 for `XCBFExchangeCalendar`. -/
theorem c61_xcbf :
    KeepsHours Xcbf.exchange Zones.americaChicago (dayOf 1901 12 15) []
      (Hours.daily (hm 8 31) (hm 15 15) (EarlyByBook cboeEarly [])) :=
  daily_of c54_xcbf_zone c60_xcbf rfl rfl rfl rfl rfl

example : OpensAt Xcbf.exchange Zones.americaChicago (dayOf 2019 10 16) (dayOf 2019 10 16 * DAY + hm 13 31) :=
  opens_of (o := (hm 8 31)) c61_xcbf c54_xcbf_zone (rules_of_check xcbf_check) (by decide +kernel) (by decide) (by decide)
    (by decide) (fun _ h => h) (by decide +kernel) clear_americaChicago.tame

/-- C61 for `XCSEExchangeCalendar`. -/
theorem c61_xcse :
    KeepsHours Xcse.exchange Zones.europeCopenhagen (dayOf 1700 1 2) []
      (Hours.daily (hm 9 1) (hm 17 0)) :=
  daily_of c54_xcse_zone (never_early rfl rfl) rfl rfl rfl rfl rfl

example : OpensAt Xcse.exchange Zones.europeCopenhagen (dayOf 2019 10 16) (dayOf 2019 10 16 * DAY + hm 7 1) :=
  opens_of (o := (hm 9 1)) c61_xcse c54_xcse_zone (rules_of_check xcse_check) (by decide +kernel) (by decide) (by decide)
    (by decide) (fun _ h => h) (by decide +kernel) clear_europeCopenhagen.tame

/-- C61 for `XDUBExchangeCalendar`. -/
theorem c61_xdub :
    KeepsHours Xdub.exchange Zones.europeDublin (dayOf 1700 1 2) []
      (Hours.daily (hm 8 1) (hm 16 28) (EarlyByBook dublinEarly dublinSingle)) :=
  daily_of c54_xdub_zone c60_xdub rfl rfl rfl rfl rfl

example : OpensAt Xdub.exchange Zones.europeDublin (dayOf 2019 10 16) (dayOf 2019 10 16 * DAY + hm 7 1) :=
  opens_of (o := (hm 8 1)) c61_xdub c54_xdub_zone (rules_of_check xdub_check) (by decide +kernel) (by decide) (by decide)
    (by decide) (fun _ h => h) (by decide +kernel) clear_europeDublin.tame

/-- C61 for `XETRExchangeCalendar`. -/
theorem c61_xetr :
    KeepsHours Xetr.exchange Zones.cet (dayOf 1700 1 2) []
      (Hours.daily (hm 9 1) (hm 17 30) (EarlyByBook xetraEarly [])) :=
  daily_of c54_xetr_zone c60_xetr rfl rfl rfl rfl rfl

example : OpensAt Xetr.exchange Zones.cet (dayOf 2019 10 16) (dayOf 2019 10 16 * DAY + hm 7 1) :=
  opens_of (o := (hm 9 1)) c61_xetr c54_xetr_zone (rules_of_check xetr_check) (by decide +kernel) (by decide) (by decide)
    (by decide) (fun _ h => h) (by decide +kernel) clear_cet.tame

/-- C61 for `XFRAExchangeCalendar`. -/
theorem c61_xfra :
    KeepsHours Xfra.exchange Zones.cet (dayOf 1700 1 2) []
      (Hours.daily (hm 9 1) (hm 17 30) (EarlyByBook frankfurtEarly [])) :=
  daily_of c54_xfra_zone c60_xfra rfl rfl rfl rfl rfl

example : OpensAt Xfra.exchange Zones.cet (dayOf 2019 10 16) (dayOf 2019 10 16 * DAY + hm 7 1) :=
  opens_of (o := (hm 9 1)) c61_xfra c54_xfra_zone (rules_of_check xfra_check) (by decide +kernel) (by decide) (by decide)
    (by decide) (fun _ h => h) (by decide +kernel) clear_cet.tame

/-- C61 for `XHELExchangeCalendar`. -/
theorem c61_xhel :
    KeepsHours Xhel.exchange Zones.europeHelsinki (dayOf 1700 1 2) []
      (Hours.daily (hm 10 1) (hm 18 30)) :=
  daily_of c54_xhel_zone (never_early rfl rfl) rfl rfl rfl rfl rfl

example : OpensAt Xhel.exchange Zones.europeHelsinki (dayOf 2019 10 16) (dayOf 2019 10 16 * DAY + hm 7 1) :=
  opens_of (o := (hm 10 1)) c61_xhel c54_xhel_zone (rules_of_check xhel_check) (by decide +kernel) (by decide) (by decide)
    (by decide) (fun _ h => h) (by decide +kernel) clear_europeHelsinki.tame

/-- C61 for `XHKGExchangeCalendar`. -/
theorem c61_xhkg : KeepsHours Xhkg.exchange Zones.asiaHongKong (dayOf 1700 1 2) [] Hours.hongKong :=
  hours_of c54_xhkg_zone c60_xhkg (changed_of (by decide) rfl) (always_of rfl) rfl rfl

example : OpensAt Xhkg.exchange Zones.asiaHongKong (dayOf 2019 10 16) (dayOf 2019 10 16 * DAY + hm 1 31) :=
  opens_of (o := (hm 9 31)) c61_xhkg c54_xhkg_zone (rules_of_check xhkg_check) (by decide +kernel) (by decide) (by decide)
    (by decide) (fun _ h => changed_at (by decide) (by decide) h) (by decide +kernel) clear_asiaHongKong.tame

/-- C61 for `XICEExchangeCalendar`. -/
theorem c61_xice :
    KeepsHours Xice.exchange Zones.atlanticReykjavik (dayOf 1700 1 2) []
      (Hours.daily (hm 9 31) (hm 15 30)) :=
  daily_of c54_xice_zone (never_early rfl rfl) rfl rfl rfl rfl rfl

example : OpensAt Xice.exchange Zones.atlanticReykjavik (dayOf 2019 10 16) (dayOf 2019 10 16 * DAY + hm 9 31) :=
  opens_of (o := (hm 9 31)) c61_xice c54_xice_zone (rules_of_check xice_check) (by decide +kernel) (by decide) (by decide)
    (by decide) (fun _ h => h) (by decide +kernel) clear_atlanticReykjavik.tame

/-- C61 for `XIDXExchangeCalendar`. -/
theorem c61_xidx :
    KeepsHours Xidx.exchange Zones.asiaJakarta (dayOf 1700 1 2) []
      (Hours.daily (hm 9 1) (hm 15 50)) :=
  daily_of c54_xidx_zone (never_early rfl rfl) rfl rfl rfl rfl rfl

example : OpensAt Xidx.exchange Zones.asiaJakarta (dayOf 2019 10 16) (dayOf 2019 10 16 * DAY + hm 2 1) :=
  opens_of (o := (hm 9 1)) c61_xidx c54_xidx_zone (rules_of_check xidx_check) (by decide +kernel) (by decide) (by decide)
    (by decide) (fun _ h => h) (by decide +kernel) clear_asiaJakarta.tame

/-- C61 for `XISTExchangeCalendar`. -/
theorem c61_xist :
    KeepsHours Xist.exchange Zones.europeIstanbul (dayOf 1700 1 2) [dayOf 2029 4 23]
      (Hours.daily (hm 10 1) (hm 18 0) (EarlyForFeasts istanbulEarly istanbulEves istanbulFullEves)) :=
  daily_of c54_xist_zone c60_xist rfl rfl rfl rfl rfl

example : OpensAt Xist.exchange Zones.europeIstanbul (dayOf 2019 10 16) (dayOf 2019 10 16 * DAY + hm 7 1) :=
  opens_of (o := (hm 10 1)) c61_xist c54_xist_zone (rules_of_check xist_check) (by decide +kernel) (by decide) (by decide)
    (by decide) (fun _ h => h) (by decide +kernel) clear_europeIstanbul.tame

/-- C61 for `XJSEExchangeCalendar`. -/
theorem c61_xjse :
    KeepsHours Xjse.exchange Zones.africaJohannesburg (dayOf 1700 1 2) []
      (Hours.daily (hm 9 1) (hm 17 0)) :=
  daily_of c54_xjse_zone (never_early rfl rfl) rfl rfl rfl rfl rfl

example : OpensAt Xjse.exchange Zones.africaJohannesburg (dayOf 2019 10 16) (dayOf 2019 10 16 * DAY + hm 7 1) :=
  opens_of (o := (hm 9 1)) c61_xjse c54_xjse_zone (rules_of_check xjse_check) (by decide +kernel) (by decide) (by decide)
    (by decide) (fun _ h => h) (by decide +kernel) clear_africaJohannesburg.tame

/-- C61 for `XKARExchangeCalendar`. -/
theorem c61_xkar :
    KeepsHours Xkar.exchange Zones.asiaKarachi (dayOf 1700 1 2) []
      (Hours.daily (hm 9 33) (hm 15 30)) :=
  daily_of c54_xkar_zone (never_early rfl rfl) rfl rfl rfl rfl rfl

example : OpensAt Xkar.exchange Zones.asiaKarachi (dayOf 2019 10 16) (dayOf 2019 10 16 * DAY + hm 4 33) :=
  opens_of (o := (hm 9 33)) c61_xkar c54_xkar_zone (rules_of_check xkar_check) (by decide +kernel) (by decide) (by decide)
    (by decide) (fun _ h => h) (by decide +kernel) clear_asiaKarachi.tame

/-- C61 for `XKLSExchangeCalendar`. -/
theorem c61_xkls :
    KeepsHours Xkls.exchange Zones.asiaKualaLumpur (dayOf 1700 1 2) [dayOf 1984 2 1, dayOf 2029 2 13, dayOf 2031 1 23, dayOf 2049 2 1]
      (Hours.daily (hm 9 1) (hm 17 0) (EarlyForFeasts [] kualaLumpurEves kualaLumpurFullEves)) :=
  daily_of c54_xkls_zone c60_xkls rfl rfl rfl rfl rfl

example : OpensAt Xkls.exchange Zones.asiaKualaLumpur (dayOf 2019 10 16) (dayOf 2019 10 16 * DAY + hm 1 1) :=
  opens_of (o := (hm 9 1)) c61_xkls c54_xkls_zone (rules_of_check xkls_check) (by decide +kernel) (by decide) (by decide)
    (by decide) (fun _ h => h) (by decide +kernel) clear_asiaKualaLumpur.tame

/-- C61 for `XKRXExchangeCalendar`. -/
theorem c61_xkrx :
    KeepsHours Xkrx.exchange Zones.asiaSeoul (dayOf 1700 1 2) []
      (Hours.daily (hm 9 1) (hm 15 30)) :=
  daily_of c54_xkrx_zone (never_early rfl rfl) rfl rfl rfl rfl rfl

example : OpensAt Xkrx.exchange Zones.asiaSeoul (dayOf 2019 10 16) (dayOf 2019 10 16 * DAY + hm 0 1) :=
  opens_of (o := (hm 9 1)) c61_xkrx c54_xkrx_zone (rules_of_check xkrx_check) (by decide +kernel) (by decide) (by decide)
    (by decide) (fun _ h => h) (by decide +kernel) clear_asiaSeoul.tame

/-- C61 for `XLIMExchangeCalendar`. -/
theorem c61_xlim :
    KeepsHours Xlim.exchange Zones.americaLima (dayOf 1901 12 15) []
      (Hours.daily (hm 9 1) (hm 16 0)) :=
  daily_of c54_xlim_zone (never_early rfl rfl) rfl rfl rfl rfl rfl

example : OpensAt Xlim.exchange Zones.americaLima (dayOf 2019 10 16) (dayOf 2019 10 16 * DAY + hm 14 1) :=
  opens_of (o := (hm 9 1)) c61_xlim c54_xlim_zone (rules_of_check xlim_check) (by decide +kernel) (by decide) (by decide)
    (by decide) (fun _ h => h) (by decide +kernel) clear_americaLima.tame

/-- C61 for `XLISExchangeCalendar`. -/
theorem c61_xlis :
    KeepsHours Xlis.exchange Zones.europeLisbon (dayOf 1700 1 2) []
      (Hours.daily (hm 8 1) (hm 16 30) (EarlyByBook lisbonEarly [])) :=
  daily_of c54_xlis_zone c60_xlis rfl rfl rfl rfl rfl

example : OpensAt Xlis.exchange Zones.europeLisbon (dayOf 2019 10 16) (dayOf 2019 10 16 * DAY + hm 7 1) :=
  opens_of (o := (hm 8 1)) c61_xlis c54_xlis_zone (rules_of_check xlis_check) (by decide +kernel) (by decide) (by decide)
    (by decide) (fun _ h => h) (by decide +kernel) clear_europeLisbon.tame

/-- C61 for `XLONExchangeCalendar`. -/
theorem c61_xlon :
    KeepsHours Xlon.exchange Zones.europeLondon (dayOf 1901 12 15) []
      (Hours.daily (hm 8 1) (hm 16 30) (EarlyByBook londonEarly [])) :=
  daily_of c54_xlon_zone c60_xlon rfl rfl rfl rfl rfl

example : OpensAt Xlon.exchange Zones.europeLondon (dayOf 2019 10 16) (dayOf 2019 10 16 * DAY + hm 7 1) :=
  opens_of (o := (hm 8 1)) c61_xlon c54_xlon_zone (rules_of_check xlon_check) (by decide +kernel) (by decide) (by decide)
    (by decide) (fun _ h => h) (by decide +kernel) clear_europeLondon.tame

/-- C61 for `XMADExchangeCalendar`. -/
theorem c61_xmad :
    KeepsHours Xmad.exchange Zones.europeMadrid (dayOf 1901 12 15) []
      (Hours.daily (hm 9 1) (hm 17 30) (EarlyByBook madridEarly [])) :=
  daily_of c54_xmad_zone c60_xmad rfl rfl rfl rfl rfl

example : OpensAt Xmad.exchange Zones.europeMadrid (dayOf 2019 10 16) (dayOf 2019 10 16 * DAY + hm 7 1) :=
  opens_of (o := (hm 9 1)) c61_xmad c54_xmad_zone (rules_of_check xmad_check) (by decide +kernel) (by decide) (by decide)
    (by decide) (fun _ h => h) (by decide +kernel) clear_europeMadrid.tame

/-- C61 for `XMEXExchangeCalendar`. -/
theorem c61_xmex :
    KeepsHours Xmex.exchange Zones.americaMexicoCity (dayOf 1700 1 2) []
      (Hours.daily (hm 8 31) (hm 15 0)) :=
  daily_of c54_xmex_zone (never_early rfl rfl) rfl rfl rfl rfl rfl

example : OpensAt Xmex.exchange Zones.americaMexicoCity (dayOf 2019 10 16) (dayOf 2019 10 16 * DAY + hm 13 31) :=
  opens_of (o := (hm 8 31)) c61_xmex c54_xmex_zone (rules_of_check xmex_check) (by decide +kernel) (by decide) (by decide)
    (by decide) (fun _ h => h) (by decide +kernel) clear_americaMexicoCity.tame

/-- C61 for `XMILExchangeCalendar`. -/
theorem c61_xmil :
    KeepsHours Xmil.exchange Zones.europeRome (dayOf 1700 1 2) []
      (Hours.daily (hm 9 1) (hm 17 30)) :=
  daily_of c54_xmil_zone (never_early rfl rfl) rfl rfl rfl rfl rfl

example : OpensAt Xmil.exchange Zones.europeRome (dayOf 2019 10 16) (dayOf 2019 10 16 * DAY + hm 7 1) :=
  opens_of (o := (hm 9 1)) c61_xmil c54_xmil_zone (rules_of_check xmil_check) (by decide +kernel) (by decide) (by decide)
    (by decide) (fun _ h => h) (by decide +kernel) clear_europeRome.tame

/-- C61 for `XMOSExchangeCalendar`. -/
theorem c61_xmos :
    KeepsHours Xmos.exchange Zones.europeMoscow (dayOf 1700 1 2) []
      (Hours.daily (hm 10 1) (hm 18 45)) :=
  daily_of c54_xmos_zone (never_early rfl rfl) rfl rfl rfl rfl rfl

example : OpensAt Xmos.exchange Zones.europeMoscow (dayOf 2019 10 16) (dayOf 2019 10 16 * DAY + hm 7 1) :=
  opens_of (o := (hm 10 1)) c61_xmos c54_xmos_zone (rules_of_check xmos_check) (by decide +kernel) (by decide) (by decide)
    (by decide) (fun _ h => h) (by decide +kernel) clear_europeMoscow.tame

/-- C61 for `XNYSExchangeCalendar`. -/
theorem c61_xnys :
    KeepsHours Xnys.exchange Zones.americaNewYork (dayOf 1901 12 15) [dayOf 1945 12 24, dayOf 1956 12 24]
      (Hours.daily (hm 9 31) (hm 16 0) (EarlyByBook newYorkEarly newYorkSingle)) :=
  daily_of c54_xnys_zone c60_xnys rfl rfl rfl rfl rfl

example : OpensAt Xnys.exchange Zones.americaNewYork (dayOf 2019 10 16) (dayOf 2019 10 16 * DAY + hm 13 31) :=
  opens_of (o := (hm 9 31)) c61_xnys c54_xnys_zone (rules_of_check xnys_check) (by decide +kernel) (by decide) (by decide)
    (by decide) (fun _ h => h) (by decide +kernel) clear_americaNewYork.tame

/-- C61 for `XNZEExchangeCalendar`. -/
theorem c61_xnze :
    KeepsHours Xnze.exchange Zones.nz (dayOf 1901 12 16) []
      (Hours.daily (hm 10 1) (hm 16 45) (EarlyByBook wellingtonEarly [])) :=
  daily_of c54_xnze_zone c60_xnze rfl rfl rfl rfl rfl

example : OpensAt Xnze.exchange Zones.nz (dayOf 2019 10 16) (dayOf 2019 10 15 * DAY + hm 21 1) :=
  opens_of (o := (hm 10 1)) c61_xnze c54_xnze_zone (rules_of_check xnze_check) (by decide +kernel) (by decide) (by decide)
    (by decide) (fun _ h => h) (by decide +kernel) clear_nz.tame

/-- C61 for `XOSLExchangeCalendar`. -/
theorem c61_xosl :
    KeepsHours Xosl.exchange Zones.europeOslo (dayOf 1700 1 2) []
      (Hours.daily (hm 9 1) (hm 16 20) (EarlyByBook osloEarly [])) :=
  daily_of c54_xosl_zone c60_xosl rfl rfl rfl rfl rfl

example : OpensAt Xosl.exchange Zones.europeOslo (dayOf 2019 10 16) (dayOf 2019 10 16 * DAY + hm 7 1) :=
  opens_of (o := (hm 9 1)) c61_xosl c54_xosl_zone (rules_of_check xosl_check) (by decide +kernel) (by decide) (by decide)
    (by decide) (fun _ h => h) (by decide +kernel) clear_europeOslo.tame

/-- C61 for `XPARExchangeCalendar`. -/
theorem c61_xpar :
    KeepsHours Xpar.exchange Zones.europeParis (dayOf 1700 1 2) []
      (Hours.daily (hm 9 1) (hm 17 30) (EarlyByBook euronextEarly [])) :=
  daily_of c54_xpar_zone c60_xpar rfl rfl rfl rfl rfl

example : OpensAt Xpar.exchange Zones.europeParis (dayOf 2019 10 16) (dayOf 2019 10 16 * DAY + hm 7 1) :=
  opens_of (o := (hm 9 1)) c61_xpar c54_xpar_zone (rules_of_check xpar_check) (by decide +kernel) (by decide) (by decide)
    (by decide) (fun _ h => h) (by decide +kernel) clear_europeParis.tame

/-- C61 for `XPHSExchangeCalendar`. -/
theorem c61_xphs :
    KeepsHours Xphs.exchange Zones.asiaManila (dayOf 1901 12 15) []
      (Hours.daily (hm 9 31) (hm 15 30)) :=
  daily_of c54_xphs_zone (never_early rfl rfl) rfl rfl rfl rfl rfl

example : OpensAt Xphs.exchange Zones.asiaManila (dayOf 2019 10 16) (dayOf 2019 10 16 * DAY + hm 1 31) :=
  opens_of (o := (hm 9 31)) c61_xphs c54_xphs_zone (rules_of_check xphs_check) (by decide +kernel) (by decide) (by decide)
    (by decide) (fun _ h => h) (by decide +kernel) clear_asiaManila.tame

/-- C61 for `XPRAExchangeCalendar`. -/
theorem c61_xpra :
    KeepsHours Xpra.exchange Zones.europePrague (dayOf 1700 1 2) []
      (Hours.daily (hm 9 1) (hm 16 20)) :=
  daily_of c54_xpra_zone (never_early rfl rfl) rfl rfl rfl rfl rfl

example : OpensAt Xpra.exchange Zones.europePrague (dayOf 2019 10 16) (dayOf 2019 10 16 * DAY + hm 7 1) :=
  opens_of (o := (hm 9 1)) c61_xpra c54_xpra_zone (rules_of_check xpra_check) (by decide +kernel) (by decide) (by decide)
    (by decide) (fun _ h => h) (by decide +kernel) clear_europePrague.tame

/-- C61 for `XSESExchangeCalendar`. -/
theorem c61_xses :
    KeepsHours Xses.exchange Zones.asiaSingapore (dayOf 1700 1 2) []
      (Hours.daily (hm 9 1) (hm 17 0)) :=
  daily_of c54_xses_zone (never_early rfl rfl) rfl rfl rfl rfl rfl

example : OpensAt Xses.exchange Zones.asiaSingapore (dayOf 2019 10 16) (dayOf 2019 10 16 * DAY + hm 1 1) :=
  opens_of (o := (hm 9 1)) c61_xses c54_xses_zone (rules_of_check xses_check) (by decide +kernel) (by decide) (by decide)
    (by decide) (fun _ h => h) (by decide +kernel) clear_asiaSingapore.tame

/-- C61 for `XSGOExchangeCalendar`. -/
theorem c61_xsgo : KeepsHours Xsgo.exchange Zones.americaSantiago (dayOf 1700 1 2) [] Hours.santiago :=
  hours_of c54_xsgo_zone c60_xsgo (always_of rfl) santiago_closes rfl rfl

example : OpensAt Xsgo.exchange Zones.americaSantiago (dayOf 2019 10 16) (dayOf 2019 10 16 * DAY + hm 12 31) :=
  opens_of (o := (hm 9 31)) c61_xsgo c54_xsgo_zone (rules_of_check xsgo_check) (by decide +kernel) (by decide) (by decide)
    (by decide) (fun _ h => h) (by decide +kernel) clear_americaSantiago.tame

/-- C61 for `XSHGExchangeCalendar`. -/
theorem c61_xshg :
    KeepsHours Xshg.exchange Zones.asiaShanghai (dayOf 1700 1 2) []
      (Hours.daily (hm 9 31) (hm 15 0)) :=
  daily_of c54_xshg_zone (never_early rfl rfl) rfl rfl rfl rfl rfl

example : OpensAt Xshg.exchange Zones.asiaShanghai (dayOf 2019 10 16) (dayOf 2019 10 16 * DAY + hm 1 31) :=
  opens_of (o := (hm 9 31)) c61_xshg c54_xshg_zone (rules_of_check xshg_check) (by decide +kernel) (by decide) (by decide)
    (by decide) (fun _ h => h) (by decide +kernel) clear_asiaShanghai.tame

/-- C61 for `XSTOExchangeCalendar`. -/
theorem c61_xsto :
    KeepsHours Xsto.exchange Zones.europeStockholm (dayOf 1700 1 2) []
      (Hours.daily (hm 9 1) (hm 17 30) (EarlyByBook stockholmEarly [])) :=
  daily_of c54_xsto_zone c60_xsto rfl rfl rfl rfl rfl

example : OpensAt Xsto.exchange Zones.europeStockholm (dayOf 2019 10 16) (dayOf 2019 10 16 * DAY + hm 7 1) :=
  opens_of (o := (hm 9 1)) c61_xsto c54_xsto_zone (rules_of_check xsto_check) (by decide +kernel) (by decide) (by decide)
    (by decide) (fun _ h => h) (by decide +kernel) clear_europeStockholm.tame

/-- C61 for `XSWXExchangeCalendar`. -/
theorem c61_xswx :
    KeepsHours Xswx.exchange Zones.europeZurich (dayOf 1700 1 2) []
      (Hours.daily (hm 9 1) (hm 17 30)) :=
  daily_of c54_xswx_zone (never_early rfl rfl) rfl rfl rfl rfl rfl

example : OpensAt Xswx.exchange Zones.europeZurich (dayOf 2019 10 16) (dayOf 2019 10 16 * DAY + hm 7 1) :=
  opens_of (o := (hm 9 1)) c61_xswx c54_xswx_zone (rules_of_check xswx_check) (by decide +kernel) (by decide) (by decide)
    (by decide) (fun _ h => h) (by decide +kernel) clear_europeZurich.tame

/-- C61 for `XTAEExchangeCalendar`. -/
theorem c61_xtae :
    KeepsHours Xtae.exchange Zones.asiaTelAviv (dayOf 1700 1 2) []
      (Hours.daily (hm 10 0) (hm 17 15)) :=
  daily_of c54_xtae_zone (never_early rfl rfl) rfl rfl rfl rfl rfl

example : OpensAt Xtae.exchange Zones.asiaTelAviv (dayOf 2019 10 16) (dayOf 2019 10 16 * DAY + hm 7 0) :=
  opens_of (o := (hm 10 0)) c61_xtae c54_xtae_zone xtae_good (by decide +kernel) (by decide) (by decide)
    (by decide) (fun _ h => h) (by decide +kernel) clear_asiaTelAviv.tame

/-- C61 for `XTAIExchangeCalendar`. -/
theorem c61_xtai :
    KeepsHours Xtai.exchange Zones.asiaTaipei (dayOf 1700 1 2) []
      (Hours.daily (hm 9 1) (hm 13 30)) :=
  daily_of c54_xtai_zone (never_early rfl rfl) rfl rfl rfl rfl rfl

example : OpensAt Xtai.exchange Zones.asiaTaipei (dayOf 2019 10 16) (dayOf 2019 10 16 * DAY + hm 1 1) :=
  opens_of (o := (hm 9 1)) c61_xtai c54_xtai_zone (rules_of_check xtai_check) (by decide +kernel) (by decide) (by decide)
    (by decide) (fun _ h => h) (by decide +kernel) clear_asiaTaipei.tame

/-- C61 for `XTKSExchangeCalendar`. -/
theorem c61_xtks :
    KeepsHours Xtks.exchange Zones.asiaTokyo (dayOf 1700 1 2) []
      (Hours.daily (hm 9 1) (hm 15 0)) :=
  daily_of c54_xtks_zone (never_early rfl rfl) rfl rfl rfl rfl rfl

example : OpensAt Xtks.exchange Zones.asiaTokyo (dayOf 2019 10 16) (dayOf 2019 10 16 * DAY + hm 0 1) :=
  opens_of (o := (hm 9 1)) c61_xtks c54_xtks_zone (rules_of_check xtks_check) (by decide +kernel) (by decide) (by decide)
    (by decide) (fun _ h => h) (by decide +kernel) clear_asiaTokyo.tame

/-- C61 for `XTSEExchangeCalendar`. -/
theorem c61_xtse :
    KeepsHours Xtse.exchange Zones.americaToronto (dayOf 1901 12 15) []
      (Hours.daily (hm 9 31) (hm 16 0) (EarlyByBook torontoEarly [])) :=
  daily_of c54_xtse_zone c60_xtse rfl rfl rfl rfl rfl

example : OpensAt Xtse.exchange Zones.americaToronto (dayOf 2019 10 16) (dayOf 2019 10 16 * DAY + hm 13 31) :=
  opens_of (o := (hm 9 31)) c61_xtse c54_xtse_zone (rules_of_check xtse_check) (by decide +kernel) (by decide) (by decide)
    (by decide) (fun _ h => h) (by decide +kernel) clear_americaToronto.tame

/-- C61 for `XWARExchangeCalendar`. -/
theorem c61_xwar :
    KeepsHours Xwar.exchange Zones.europeWarsaw (dayOf 1700 1 2) []
      (Hours.daily (hm 9 1) (hm 17 0)) :=
  daily_of c54_xwar_zone (never_early rfl rfl) rfl rfl rfl rfl rfl

example : OpensAt Xwar.exchange Zones.europeWarsaw (dayOf 2019 10 16) (dayOf 2019 10 16 * DAY + hm 7 1) :=
  opens_of (o := (hm 9 1)) c61_xwar c54_xwar_zone (rules_of_check xwar_check) (by decide +kernel) (by decide) (by decide)
    (by decide) (fun _ h => h) (by decide +kernel) clear_europeWarsaw.tame

/-- C61 for `XWBOExchangeCalendar`. -/
theorem c61_xwbo :
    KeepsHours Xwbo.exchange Zones.europeVienna (dayOf 1700 1 2) []
      (Hours.daily (hm 9 1) (hm 17 30)) :=
  daily_of c54_xwbo_zone (never_early rfl rfl) rfl rfl rfl rfl rfl

example : OpensAt Xwbo.exchange Zones.europeVienna (dayOf 2019 10 16) (dayOf 2019 10 16 * DAY + hm 7 1) :=
  opens_of (o := (hm 9 1)) c61_xwbo c54_xwbo_zone (rules_of_check xwbo_check) (by decide +kernel) (by decide) (by decide)
    (by decide) (fun _ h => h) (by decide +kernel) clear_europeVienna.tame

end TC.Props
