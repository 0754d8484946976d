import Verif.Lemmas.ZonesClear
import Verif.Model.Exchanges.Bvmf
import Verif.Model.Exchanges.Xams
import Verif.Model.Exchanges.Xbom
import Verif.Model.Exchanges.Xcbf
import Verif.Model.Exchanges.Xfra
import Verif.Model.Exchanges.Xidx
import Verif.Model.Exchanges.Xkls
import Verif.Model.Exchanges.Xlon
import Verif.Model.Exchanges.Xmos
import Verif.Model.Exchanges.Xpar
import Verif.Model.Exchanges.Xsgo
import Verif.Model.Exchanges.Xtai
import Verif.Model.Exchanges.Xwbo

/-!
# Every shipped calendar can be constructed (C54), part 2 of 4

Written by `tools/gen_props.py`; part 1 explains the statement.
-/

namespace TC.Props
open Spec

set_option maxRecDepth 100000

theorem bvmf_check : Bvmf.exchange.check [] = true := by decide +kernel

/-- C54 for `BVMFExchangeCalendar`. -/
theorem c54_bvmf : Constructible Bvmf.exchange [] := constructible_of bvmf_check

/-- C54 for `BVMFExchangeCalendar` in `America/Sao_Paulo`. -/
theorem c54_bvmf_zone : ConstructibleFrom Bvmf.exchange Bvmf.zone (dayOf 1931 10 5) [] :=
  constructibleFrom_of c54_bvmf clear_americaSaoPaulo (by decide +kernel) (by decide)

example : TradesOn Bvmf.exchange (dayOf 2019 10 16) :=
  trades_of bvmf_check (by decide +kernel)

theorem xams_check : Xams.exchange.check [] = true := by decide +kernel

/-- C54 for `XAMSExchangeCalendar`. -/
theorem c54_xams : Constructible Xams.exchange [] := constructible_of xams_check

/-- C54 for `XAMSExchangeCalendar` in `Europe/Amsterdam`. -/
theorem c54_xams_zone : ConstructibleFrom Xams.exchange Xams.zone (dayOf 1700 1 2) [] :=
  constructibleFrom_of c54_xams clear_europeAmsterdam (by decide +kernel) (by decide)

example : TradesOn Xams.exchange (dayOf 2019 10 16) :=
  trades_of xams_check (by decide +kernel)

theorem xbom_check : Xbom.exchange.check [] = true := by decide +kernel

/-- C54 for `XBOMExchangeCalendar`. -/
theorem c54_xbom : Constructible Xbom.exchange [] := constructible_of xbom_check

/-- C54 for `XBOMExchangeCalendar` in `Asia/Calcutta`. -/
theorem c54_xbom_zone : ConstructibleFrom Xbom.exchange Xbom.zone (dayOf 1700 1 2) [] :=
  constructibleFrom_of c54_xbom clear_asiaCalcutta (by decide +kernel) (by decide)

example : TradesOn Xbom.exchange (dayOf 2019 10 16) :=
  trades_of xbom_check (by decide +kernel)

theorem xcbf_check : Xcbf.exchange.check [] = true := by decide +kernel

/-- C54 for `XCBFExchangeCalendar`. -/
theorem c54_xcbf : Constructible Xcbf.exchange [] := constructible_of xcbf_check

/-- C54 for `XCBFExchangeCalendar` in `America/Chicago`. -/
theorem c54_xcbf_zone : ConstructibleFrom Xcbf.exchange Xcbf.zone (dayOf 1901 12 15) [] :=
  constructibleFrom_of c54_xcbf clear_americaChicago (by decide +kernel) (by decide)

example : TradesOn Xcbf.exchange (dayOf 2019 10 16) :=
  trades_of xcbf_check (by decide +kernel)

theorem xfra_check : Xfra.exchange.check [] = true := by decide +kernel

/-- C54 for `XFRAExchangeCalendar`. -/
theorem c54_xfra : Constructible Xfra.exchange [] := constructible_of xfra_check

/-- C54 for `XFRAExchangeCalendar` in `CET`. -/
theorem c54_xfra_zone : ConstructibleFrom Xfra.exchange Xfra.zone (dayOf 1700 1 2) [] :=
  constructibleFrom_of c54_xfra clear_cet (by decide +kernel) (by decide)

example : TradesOn Xfra.exchange (dayOf 2019 10 16) :=
  trades_of xfra_check (by decide +kernel)

theorem xidx_check : Xidx.exchange.check [] = true := by decide +kernel

/-- C54 for `XIDXExchangeCalendar`. -/
theorem c54_xidx : Constructible Xidx.exchange [] := constructible_of xidx_check

/-- C54 for `XIDXExchangeCalendar` in `Asia/Jakarta`. -/
theorem c54_xidx_zone : ConstructibleFrom Xidx.exchange Xidx.zone (dayOf 1700 1 2) [] :=
  constructibleFrom_of c54_xidx clear_asiaJakarta (by decide +kernel) (by decide)

example : TradesOn Xidx.exchange (dayOf 2019 10 16) :=
  trades_of xidx_check (by decide +kernel)

theorem xkls_check : Xkls.exchange.check
    [dayOf 1984 2 1, dayOf 2029 2 13, dayOf 2031 1 23, dayOf 2049 2 1] = true :=
  by decide +kernel

/-- C54 for `XKLSExchangeCalendar`. The four days are half days before Chinese New Year that are
holidays as well. -/
theorem c54_xkls : Constructible Xkls.exchange
    [dayOf 1984 2 1, dayOf 2029 2 13, dayOf 2031 1 23, dayOf 2049 2 1] :=
  constructible_of xkls_check

/-- C54 for `XKLSExchangeCalendar` in `Asia/Kuala_Lumpur`. -/
theorem c54_xkls_zone : ConstructibleFrom Xkls.exchange Xkls.zone (dayOf 1700 1 2)
    [dayOf 1984 2 1, dayOf 2029 2 13, dayOf 2031 1 23, dayOf 2049 2 1] :=
  constructibleFrom_of c54_xkls clear_asiaKualaLumpur (by decide +kernel) (by decide)

example : TradesOn Xkls.exchange (dayOf 2019 10 16) :=
  trades_of xkls_check (by decide +kernel)

theorem xlon_check : Xlon.exchange.check [] = true := by decide +kernel

/-- C54 for `XLONExchangeCalendar`. -/
theorem c54_xlon : Constructible Xlon.exchange [] := constructible_of xlon_check

/-- C54 for `XLONExchangeCalendar` in `Europe/London`. -/
theorem c54_xlon_zone : ConstructibleFrom Xlon.exchange Xlon.zone (dayOf 1901 12 15) [] :=
  constructibleFrom_of c54_xlon clear_europeLondon (by decide +kernel) (by decide)

example : TradesOn Xlon.exchange (dayOf 2019 10 16) :=
  trades_of xlon_check (by decide +kernel)

theorem xmos_check : Xmos.exchange.check [] = true := by decide +kernel

/-- C54 for `XMOSExchangeCalendar`. -/
theorem c54_xmos : Constructible Xmos.exchange [] := constructible_of xmos_check

/-- C54 for `XMOSExchangeCalendar` in `Europe/Moscow`. -/
theorem c54_xmos_zone : ConstructibleFrom Xmos.exchange Xmos.zone (dayOf 1700 1 2) [] :=
  constructibleFrom_of c54_xmos clear_europeMoscow (by decide +kernel) (by decide)

example : TradesOn Xmos.exchange (dayOf 2019 10 16) :=
  trades_of xmos_check (by decide +kernel)

theorem xpar_check : Xpar.exchange.check [] = true := by decide +kernel

/-- C54 for `XPARExchangeCalendar`. -/
theorem c54_xpar : Constructible Xpar.exchange [] := constructible_of xpar_check

/-- C54 for `XPARExchangeCalendar` in `Europe/Paris`. -/
theorem c54_xpar_zone : ConstructibleFrom Xpar.exchange Xpar.zone (dayOf 1700 1 2) [] :=
  constructibleFrom_of c54_xpar clear_europeParis (by decide +kernel) (by decide)

example : TradesOn Xpar.exchange (dayOf 2019 10 16) :=
  trades_of xpar_check (by decide +kernel)

theorem xsgo_check : Xsgo.exchange.check [] = true := by decide +kernel

/-- C54 for `XSGOExchangeCalendar`. -/
theorem c54_xsgo : Constructible Xsgo.exchange [] := constructible_of xsgo_check

/-- C54 for `XSGOExchangeCalendar` in `America/Santiago`. -/
theorem c54_xsgo_zone : ConstructibleFrom Xsgo.exchange Xsgo.zone (dayOf 1700 1 2) [] :=
  constructibleFrom_of c54_xsgo clear_americaSantiago (by decide +kernel) (by decide)

example : TradesOn Xsgo.exchange (dayOf 2019 10 16) :=
  trades_of xsgo_check (by decide +kernel)

theorem xtai_check : Xtai.exchange.check [] = true := by decide +kernel

/-- C54 for `XTAIExchangeCalendar`. -/
theorem c54_xtai : Constructible Xtai.exchange [] := constructible_of xtai_check

/-- C54 for `XTAIExchangeCalendar` in `Asia/Taipei`. -/
theorem c54_xtai_zone : ConstructibleFrom Xtai.exchange Xtai.zone (dayOf 1700 1 2) [] :=
  constructibleFrom_of c54_xtai clear_asiaTaipei (by decide +kernel) (by decide)

example : TradesOn Xtai.exchange (dayOf 2019 10 16) :=
  trades_of xtai_check (by decide +kernel)

theorem xwbo_check : Xwbo.exchange.check [] = true := by decide +kernel

/-- C54 for `XWBOExchangeCalendar`. -/
theorem c54_xwbo : Constructible Xwbo.exchange [] := constructible_of xwbo_check

/-- C54 for `XWBOExchangeCalendar` in `Europe/Vienna`. -/
theorem c54_xwbo_zone : ConstructibleFrom Xwbo.exchange Xwbo.zone (dayOf 1700 1 2) [] :=
  constructibleFrom_of c54_xwbo clear_europeVienna (by decide +kernel) (by decide)

example : TradesOn Xwbo.exchange (dayOf 2019 10 16) :=
  trades_of xwbo_check (by decide +kernel)

end TC.Props
