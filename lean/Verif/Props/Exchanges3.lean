import Verif.Lemmas.ZonesClear
import Verif.Model.Exchanges.Cmes
import Verif.Model.Exchanges.Xasx
import Verif.Model.Exchanges.Xbru
import Verif.Model.Exchanges.Xcse
import Verif.Model.Exchanges.Xhel
import Verif.Model.Exchanges.Xist
import Verif.Model.Exchanges.Xkrx
import Verif.Model.Exchanges.Xmad
import Verif.Model.Exchanges.Xnys
import Verif.Model.Exchanges.Xphs
import Verif.Model.Exchanges.Xshg
import Verif.Model.Exchanges.Xtks

/-!
# Every shipped calendar can be constructed (C54), part 3 of 4

Written by `tools/gen_props.py`; part 1 explains the statement.
-/

namespace TC.Props
open Spec

set_option maxRecDepth 100000

theorem cmes_check : Cmes.exchange.check [] = true := by decide +kernel

/-- C54 for `CMESExchangeCalendar`. -/
theorem c54_cmes : Constructible Cmes.exchange [] := constructible_of cmes_check

/-- C54 for `CMESExchangeCalendar` in `America/Chicago`. -/
theorem c54_cmes_zone : ConstructibleFrom Cmes.exchange Cmes.zone (dayOf 1901 12 15) [] :=
  constructibleFrom_of c54_cmes clear_americaChicago (by decide +kernel) (by decide)

example : TradesOn Cmes.exchange (dayOf 2019 10 16) :=
  trades_of cmes_check (by decide +kernel)

theorem xasx_check : Xasx.exchange.check [] = true := by decide +kernel

/-- C54 for `XASXExchangeCalendar`. -/
theorem c54_xasx : Constructible Xasx.exchange [] := constructible_of xasx_check

/-- C54 for `XASXExchangeCalendar` in `Australia/Sydney`. -/
theorem c54_xasx_zone : ConstructibleFrom Xasx.exchange Xasx.zone (dayOf 1700 1 2) [] :=
  constructibleFrom_of c54_xasx clear_australiaSydney (by decide +kernel) (by decide)

example : TradesOn Xasx.exchange (dayOf 2019 10 16) :=
  trades_of xasx_check (by decide +kernel)

theorem xbru_check : Xbru.exchange.check [] = true := by decide +kernel

/-- C54 for `XBRUExchangeCalendar`. -/
theorem c54_xbru : Constructible Xbru.exchange [] := constructible_of xbru_check

/-- C54 for `XBRUExchangeCalendar` in `Europe/Brussels`. -/
theorem c54_xbru_zone : ConstructibleFrom Xbru.exchange Xbru.zone (dayOf 1918 11 13) [] :=
  constructibleFrom_of c54_xbru clear_europeBrussels (by decide +kernel) (by decide)

example : TradesOn Xbru.exchange (dayOf 2019 10 16) :=
  trades_of xbru_check (by decide +kernel)

theorem xcse_check : Xcse.exchange.check [] = true := by decide +kernel

/-- C54 for `XCSEExchangeCalendar`. -/
theorem c54_xcse : Constructible Xcse.exchange [] := constructible_of xcse_check

/-- C54 for `XCSEExchangeCalendar` in `Europe/Copenhagen`. -/
theorem c54_xcse_zone : ConstructibleFrom Xcse.exchange Xcse.zone (dayOf 1700 1 2) [] :=
  constructibleFrom_of c54_xcse clear_europeCopenhagen (by decide +kernel) (by decide)

example : TradesOn Xcse.exchange (dayOf 2019 10 16) :=
  trades_of xcse_check (by decide +kernel)

theorem xhel_check : Xhel.exchange.check [] = true := by decide +kernel

/-- C54 for `XHELExchangeCalendar`. -/
theorem c54_xhel : Constructible Xhel.exchange [] := constructible_of xhel_check

/-- C54 for `XHELExchangeCalendar` in `Europe/Helsinki`. -/
theorem c54_xhel_zone : ConstructibleFrom Xhel.exchange Xhel.zone (dayOf 1700 1 2) [] :=
  constructibleFrom_of c54_xhel clear_europeHelsinki (by decide +kernel) (by decide)

example : TradesOn Xhel.exchange (dayOf 2019 10 16) :=
  trades_of xhel_check (by decide +kernel)

theorem xist_check : Xist.exchange.check [dayOf 2029 4 23] = true := by decide +kernel

/-- C54 for `XISTExchangeCalendar`. On 2029-04-23 the half day before the Feast of Sacrifice
collides with National Sovereignty Day. -/
theorem c54_xist : Constructible Xist.exchange [dayOf 2029 4 23] := constructible_of xist_check

/-- C54 for `XISTExchangeCalendar` in `Europe/Istanbul`. -/
theorem c54_xist_zone : ConstructibleFrom Xist.exchange Xist.zone (dayOf 1700 1 2)
    [dayOf 2029 4 23] :=
  constructibleFrom_of c54_xist clear_europeIstanbul (by decide +kernel) (by decide)

example : TradesOn Xist.exchange (dayOf 2019 10 16) :=
  trades_of xist_check (by decide +kernel)

theorem xkrx_check : Xkrx.exchange.check [] = true := by decide +kernel

/-- C54 for `XKRXExchangeCalendar`. -/
theorem c54_xkrx : Constructible Xkrx.exchange [] := constructible_of xkrx_check

/-- C54 for `XKRXExchangeCalendar` in `Asia/Seoul`. -/
theorem c54_xkrx_zone : ConstructibleFrom Xkrx.exchange Xkrx.zone (dayOf 1700 1 2) [] :=
  constructibleFrom_of c54_xkrx clear_asiaSeoul (by decide +kernel) (by decide)

example : TradesOn Xkrx.exchange (dayOf 2019 10 16) :=
  trades_of xkrx_check (by decide +kernel)

theorem xmad_check : Xmad.exchange.check [] = true := by decide +kernel

/-- C54 for `XMADExchangeCalendar`. -/
theorem c54_xmad : Constructible Xmad.exchange [] := constructible_of xmad_check

/-- C54 for `XMADExchangeCalendar` in `Europe/Madrid`. -/
theorem c54_xmad_zone : ConstructibleFrom Xmad.exchange Xmad.zone (dayOf 1901 12 15) [] :=
  constructibleFrom_of c54_xmad clear_europeMadrid (by decide +kernel) (by decide)

example : TradesOn Xmad.exchange (dayOf 2019 10 16) :=
  trades_of xmad_check (by decide +kernel)

theorem xnys_check : Xnys.exchange.check [dayOf 1945 12 24, dayOf 1956 12 24] = true :=
  by decide +kernel

/-- C54 for `XNYSExchangeCalendar`. 1945-12-24 and 1956-12-24 are Christmas Eve early closes by
rule and ad-hoc holidays. -/
theorem c54_xnys : Constructible Xnys.exchange [dayOf 1945 12 24, dayOf 1956 12 24] :=
  constructible_of xnys_check

/-- C54 for `XNYSExchangeCalendar` in `America/New_York`. -/
theorem c54_xnys_zone : ConstructibleFrom Xnys.exchange Xnys.zone (dayOf 1901 12 15)
    [dayOf 1945 12 24, dayOf 1956 12 24] :=
  constructibleFrom_of c54_xnys clear_americaNewYork (by decide +kernel) (by decide)

example : TradesOn Xnys.exchange (dayOf 2019 10 16) :=
  trades_of xnys_check (by decide +kernel)

theorem xphs_check : Xphs.exchange.check [] = true := by decide +kernel

/-- C54 for `XPHSExchangeCalendar`. -/
theorem c54_xphs : Constructible Xphs.exchange [] := constructible_of xphs_check

/-- C54 for `XPHSExchangeCalendar` in `Asia/Manila`. -/
theorem c54_xphs_zone : ConstructibleFrom Xphs.exchange Xphs.zone (dayOf 1901 12 15) [] :=
  constructibleFrom_of c54_xphs clear_asiaManila (by decide +kernel) (by decide)

example : TradesOn Xphs.exchange (dayOf 2019 10 16) :=
  trades_of xphs_check (by decide +kernel)

theorem xshg_check : Xshg.exchange.check [] = true := by decide +kernel

/-- C54 for `XSHGExchangeCalendar`. -/
theorem c54_xshg : Constructible Xshg.exchange [] := constructible_of xshg_check

/-- C54 for `XSHGExchangeCalendar` in `Asia/Shanghai`. -/
theorem c54_xshg_zone : ConstructibleFrom Xshg.exchange Xshg.zone (dayOf 1700 1 2) [] :=
  constructibleFrom_of c54_xshg clear_asiaShanghai (by decide +kernel) (by decide)

example : TradesOn Xshg.exchange (dayOf 2019 10 16) :=
  trades_of xshg_check (by decide +kernel)

theorem xtks_check : Xtks.exchange.check [] = true := by decide +kernel

/-- C54 for `XTKSExchangeCalendar`. -/
theorem c54_xtks : Constructible Xtks.exchange [] := constructible_of xtks_check

/-- C54 for `XTKSExchangeCalendar` in `Asia/Tokyo`. -/
theorem c54_xtks_zone : ConstructibleFrom Xtks.exchange Xtks.zone (dayOf 1700 1 2) [] :=
  constructibleFrom_of c54_xtks clear_asiaTokyo (by decide +kernel) (by decide)

example : TradesOn Xtks.exchange (dayOf 2019 10 16) :=
  trades_of xtks_check (by decide +kernel)

end TC.Props
