import Verif.Lemmas.ZonesClear
import Verif.Model.Exchanges.Iepa
import Verif.Model.Exchanges.Xbkk
import Verif.Model.Exchanges.Xbud
import Verif.Model.Exchanges.Xdub
import Verif.Model.Exchanges.Xhkg
import Verif.Model.Exchanges.Xjse
import Verif.Model.Exchanges.Xlim
import Verif.Model.Exchanges.Xmex
import Verif.Model.Exchanges.Xnze
import Verif.Model.Exchanges.Xpra
import Verif.Model.Exchanges.Xsto
import Verif.Model.Exchanges.Xtse

/-!
# Every shipped calendar can be constructed (C54), part 4 of 4

Written by `tools/gen_props.py`; part 1 explains the statement.
-/

namespace TC.Props
open Spec

set_option maxRecDepth 100000

theorem iepa_check : Iepa.exchange.check [] = true := by decide +kernel

/-- C54 for `IEPAExchangeCalendar`. -/
theorem c54_iepa : Constructible Iepa.exchange [] := constructible_of iepa_check

/-- C54 for `IEPAExchangeCalendar` in `America/New_York`. -/
theorem c54_iepa_zone : ConstructibleFrom Iepa.exchange Iepa.zone (dayOf 1901 12 15) [] :=
  constructibleFrom_of c54_iepa clear_americaNewYork (by decide +kernel) (by decide)

example : TradesOn Iepa.exchange (dayOf 2019 10 16) :=
  trades_of iepa_check (by decide +kernel)

theorem xbkk_check : Xbkk.exchange.check [] = true := by decide +kernel

/-- C54 for `XBKKExchangeCalendar`. -/
theorem c54_xbkk : Constructible Xbkk.exchange [] := constructible_of xbkk_check

/-- C54 for `XBKKExchangeCalendar` in `Asia/Bangkok`. -/
theorem c54_xbkk_zone : ConstructibleFrom Xbkk.exchange Xbkk.zone (dayOf 1700 1 2) [] :=
  constructibleFrom_of c54_xbkk clear_asiaBangkok (by decide +kernel) (by decide)

example : TradesOn Xbkk.exchange (dayOf 2019 10 16) :=
  trades_of xbkk_check (by decide +kernel)

theorem xbud_check : Xbud.exchange.check [] = true := by decide +kernel

/-- C54 for `XBUDExchangeCalendar`. -/
theorem c54_xbud : Constructible Xbud.exchange [] := constructible_of xbud_check

/-- C54 for `XBUDExchangeCalendar` in `Europe/Budapest`. -/
theorem c54_xbud_zone : ConstructibleFrom Xbud.exchange Xbud.zone (dayOf 1700 1 2) [] :=
  constructibleFrom_of c54_xbud clear_europeBudapest (by decide +kernel) (by decide)

example : TradesOn Xbud.exchange (dayOf 2019 10 16) :=
  trades_of xbud_check (by decide +kernel)

theorem xdub_check : Xdub.exchange.check [] = true := by decide +kernel

/-- C54 for `XDUBExchangeCalendar`. -/
theorem c54_xdub : Constructible Xdub.exchange [] := constructible_of xdub_check

/-- C54 for `XDUBExchangeCalendar` in `Europe/Dublin`. -/
theorem c54_xdub_zone : ConstructibleFrom Xdub.exchange Xdub.zone (dayOf 1700 1 2) [] :=
  constructibleFrom_of c54_xdub clear_europeDublin (by decide +kernel) (by decide)

example : TradesOn Xdub.exchange (dayOf 2019 10 16) :=
  trades_of xdub_check (by decide +kernel)

theorem xhkg_check : Xhkg.exchange.check [] = true := by decide +kernel

/-- C54 for `XHKGExchangeCalendar`. -/
theorem c54_xhkg : Constructible Xhkg.exchange [] := constructible_of xhkg_check

/-- C54 for `XHKGExchangeCalendar` in `Asia/Hong_Kong`. -/
theorem c54_xhkg_zone : ConstructibleFrom Xhkg.exchange Xhkg.zone (dayOf 1700 1 2) [] :=
  constructibleFrom_of c54_xhkg clear_asiaHongKong (by decide +kernel) (by decide)

example : TradesOn Xhkg.exchange (dayOf 2019 10 16) :=
  trades_of xhkg_check (by decide +kernel)

theorem xjse_check : Xjse.exchange.check [] = true := by decide +kernel

/-- C54 for `XJSEExchangeCalendar`. -/
theorem c54_xjse : Constructible Xjse.exchange [] := constructible_of xjse_check

/-- C54 for `XJSEExchangeCalendar` in `Africa/Johannesburg`. -/
theorem c54_xjse_zone : ConstructibleFrom Xjse.exchange Xjse.zone (dayOf 1700 1 2) [] :=
  constructibleFrom_of c54_xjse clear_africaJohannesburg (by decide +kernel) (by decide)

example : TradesOn Xjse.exchange (dayOf 2019 10 16) :=
  trades_of xjse_check (by decide +kernel)

theorem xlim_check : Xlim.exchange.check [] = true := by decide +kernel

/-- C54 for `ExchangeHolidays`. -/
theorem c54_xlim : Constructible Xlim.exchange [] := constructible_of xlim_check

/-- C54 for `ExchangeHolidays` in `America/Lima`. -/
theorem c54_xlim_zone : ConstructibleFrom Xlim.exchange Xlim.zone (dayOf 1901 12 15) [] :=
  constructibleFrom_of c54_xlim clear_americaLima (by decide +kernel) (by decide)

example : TradesOn Xlim.exchange (dayOf 2019 10 16) :=
  trades_of xlim_check (by decide +kernel)

theorem xmex_check : Xmex.exchange.check [] = true := by decide +kernel

/-- C54 for `XMEXExchangeCalendar`. -/
theorem c54_xmex : Constructible Xmex.exchange [] := constructible_of xmex_check

/-- C54 for `XMEXExchangeCalendar` in `America/Mexico_City`. -/
theorem c54_xmex_zone : ConstructibleFrom Xmex.exchange Xmex.zone (dayOf 1700 1 2) [] :=
  constructibleFrom_of c54_xmex clear_americaMexicoCity (by decide +kernel) (by decide)

example : TradesOn Xmex.exchange (dayOf 2019 10 16) :=
  trades_of xmex_check (by decide +kernel)

theorem xnze_check : Xnze.exchange.check [] = true := by decide +kernel

/-- C54 for `XNZEExchangeCalendar`. -/
theorem c54_xnze : Constructible Xnze.exchange [] := constructible_of xnze_check

/-- C54 for `XNZEExchangeCalendar` in `NZ`. -/
theorem c54_xnze_zone : ConstructibleFrom Xnze.exchange Xnze.zone (dayOf 1901 12 16) [] :=
  constructibleFrom_of c54_xnze clear_nz (by decide +kernel) (by decide)

example : TradesOn Xnze.exchange (dayOf 2019 10 16) :=
  trades_of xnze_check (by decide +kernel)

theorem xpra_check : Xpra.exchange.check [] = true := by decide +kernel

/-- C54 for `XPRAExchangeCalendar`. -/
theorem c54_xpra : Constructible Xpra.exchange [] := constructible_of xpra_check

/-- C54 for `XPRAExchangeCalendar` in `Europe/Prague`. -/
theorem c54_xpra_zone : ConstructibleFrom Xpra.exchange Xpra.zone (dayOf 1700 1 2) [] :=
  constructibleFrom_of c54_xpra clear_europePrague (by decide +kernel) (by decide)

example : TradesOn Xpra.exchange (dayOf 2019 10 16) :=
  trades_of xpra_check (by decide +kernel)

theorem xsto_check : Xsto.exchange.check [] = true := by decide +kernel

/-- C54 for `XSTOExchangeCalendar`. -/
theorem c54_xsto : Constructible Xsto.exchange [] := constructible_of xsto_check

/-- C54 for `XSTOExchangeCalendar` in `Europe/Stockholm`. -/
theorem c54_xsto_zone : ConstructibleFrom Xsto.exchange Xsto.zone (dayOf 1700 1 2) [] :=
  constructibleFrom_of c54_xsto clear_europeStockholm (by decide +kernel) (by decide)

example : TradesOn Xsto.exchange (dayOf 2019 10 16) :=
  trades_of xsto_check (by decide +kernel)

theorem xtse_check : Xtse.exchange.check [] = true := by decide +kernel

/-- C54 for `XTSEExchangeCalendar`. -/
theorem c54_xtse : Constructible Xtse.exchange [] := constructible_of xtse_check

/-- C54 for `XTSEExchangeCalendar` in `America/Toronto`. -/
theorem c54_xtse_zone : ConstructibleFrom Xtse.exchange Xtse.zone (dayOf 1901 12 15) [] :=
  constructibleFrom_of c54_xtse clear_americaToronto (by decide +kernel) (by decide)

example : TradesOn Xtse.exchange (dayOf 2019 10 16) :=
  trades_of xtse_check (by decide +kernel)

end TC.Props
