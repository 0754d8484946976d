import Verif.Lemmas.ZonesClear
import Verif.Model.Exchanges.Asex
import Verif.Model.Exchanges.UsFuturesCalendar
import Verif.Model.Exchanges.Xbog
import Verif.Model.Exchanges.Xbue
import Verif.Model.Exchanges.Xetr
import Verif.Model.Exchanges.Xice
import Verif.Model.Exchanges.Xkar
import Verif.Model.Exchanges.Xlis
import Verif.Model.Exchanges.Xmil
import Verif.Model.Exchanges.Xosl
import Verif.Model.Exchanges.Xses
import Verif.Model.Exchanges.Xswx
import Verif.Model.Exchanges.Xwar

/-!
# Every shipped calendar can be constructed (C54), part 1 of 4

For each exchange there are two theorems.  `c54_x` says that its calendar can be constructed in every
suitable zone for every range from a midnight on (`Spec.Constructible`, which also describes the
sessions, their times and the early closes, and when construction raises); `c54_x_zone` says so for
the transition table of the calendar's own zone, with no hypothesis on the zone left, for every range
from the given day on.  The proofs evaluate a check of the exchange's rules and tables that is proved
sound for all years and ranges.

Written by `tools/gen_props.py`.
-/

namespace TC.Props
open Spec

set_option maxRecDepth 100000

theorem asex_check : Asex.exchange.check [] = true := by decide +kernel

/-- C54 for `ASEXExchangeCalendar`. -/
theorem c54_asex : Constructible Asex.exchange [] := constructible_of asex_check

/-- C54 for `ASEXExchangeCalendar` in `Europe/Athens`. -/
theorem c54_asex_zone : ConstructibleFrom Asex.exchange Asex.zone (dayOf 1979 4 3) [] :=
  constructibleFrom_of c54_asex clear_europeAthens (by decide +kernel) (by decide)

example : TradesOn Asex.exchange (dayOf 2019 10 16) :=
  trades_of asex_check (by decide +kernel)

theorem usFuturesCalendar_check : UsFuturesCalendar.exchange.check [] = true := by decide +kernel

/-- C54 for `QuantopianUSFuturesCalendar`. -/
theorem c54_usFuturesCalendar : Constructible UsFuturesCalendar.exchange [] :=
  constructible_of usFuturesCalendar_check

/-- C54 for `QuantopianUSFuturesCalendar` in `America/New_York`. -/
theorem c54_usFuturesCalendar_zone :
    ConstructibleFrom UsFuturesCalendar.exchange UsFuturesCalendar.zone (dayOf 1901 12 15) [] :=
  constructibleFrom_of c54_usFuturesCalendar clear_americaNewYork (by decide +kernel) (by decide)

example : TradesOn UsFuturesCalendar.exchange (dayOf 2019 10 16) :=
  trades_of usFuturesCalendar_check (by decide +kernel)

theorem xbog_check : Xbog.exchange.check [] = true := by decide +kernel

/-- C54 for `XBOGExchangeCalendar`. -/
theorem c54_xbog : Constructible Xbog.exchange [] := constructible_of xbog_check

/-- C54 for `XBOGExchangeCalendar` in `America/New_York`. -/
theorem c54_xbog_zone : ConstructibleFrom Xbog.exchange Xbog.zone (dayOf 1901 12 15) [] :=
  constructibleFrom_of c54_xbog clear_americaNewYork (by decide +kernel) (by decide)

example : TradesOn Xbog.exchange (dayOf 2019 10 16) :=
  trades_of xbog_check (by decide +kernel)

theorem xbue_check : Xbue.exchange.check [] = true := by decide +kernel

/-- C54 for `XBUEExchangeCalendar`. -/
theorem c54_xbue : Constructible Xbue.exchange [] := constructible_of xbue_check

/-- C54 for `XBUEExchangeCalendar` in `America/Argentina/Buenos_Aires`. -/
theorem c54_xbue_zone : ConstructibleFrom Xbue.exchange Xbue.zone (dayOf 1901 12 15) [] :=
  constructibleFrom_of c54_xbue clear_americaArgentinaBuenosAires (by decide +kernel) (by decide)

example : TradesOn Xbue.exchange (dayOf 2019 10 16) :=
  trades_of xbue_check (by decide +kernel)

theorem xetr_check : Xetr.exchange.check [] = true := by decide +kernel

/-- C54 for `XETRExchangeCalendar`. -/
theorem c54_xetr : Constructible Xetr.exchange [] := constructible_of xetr_check

/-- C54 for `XETRExchangeCalendar` in `CET`. -/
theorem c54_xetr_zone : ConstructibleFrom Xetr.exchange Xetr.zone (dayOf 1700 1 2) [] :=
  constructibleFrom_of c54_xetr clear_cet (by decide +kernel) (by decide)

example : TradesOn Xetr.exchange (dayOf 2019 10 16) :=
  trades_of xetr_check (by decide +kernel)

theorem xice_check : Xice.exchange.check [] = true := by decide +kernel

/-- C54 for `XICEExchangeCalendar`. -/
theorem c54_xice : Constructible Xice.exchange [] := constructible_of xice_check

/-- C54 for `XICEExchangeCalendar` in `Atlantic/Reykjavik`. -/
theorem c54_xice_zone : ConstructibleFrom Xice.exchange Xice.zone (dayOf 1700 1 2) [] :=
  constructibleFrom_of c54_xice clear_atlanticReykjavik (by decide +kernel) (by decide)

example : TradesOn Xice.exchange (dayOf 2019 10 16) :=
  trades_of xice_check (by decide +kernel)

theorem xkar_check : Xkar.exchange.check [] = true := by decide +kernel

/-- C54 for `XKARExchangeCalendar`. -/
theorem c54_xkar : Constructible Xkar.exchange [] := constructible_of xkar_check

/-- C54 for `XKARExchangeCalendar` in `Asia/Karachi`. -/
theorem c54_xkar_zone : ConstructibleFrom Xkar.exchange Xkar.zone (dayOf 1700 1 2) [] :=
  constructibleFrom_of c54_xkar clear_asiaKarachi (by decide +kernel) (by decide)

example : TradesOn Xkar.exchange (dayOf 2019 10 16) :=
  trades_of xkar_check (by decide +kernel)

theorem xlis_check : Xlis.exchange.check [] = true := by decide +kernel

/-- C54 for `XLISExchangeCalendar`. -/
theorem c54_xlis : Constructible Xlis.exchange [] := constructible_of xlis_check

/-- C54 for `XLISExchangeCalendar` in `Europe/Lisbon`. -/
theorem c54_xlis_zone : ConstructibleFrom Xlis.exchange Xlis.zone (dayOf 1700 1 2) [] :=
  constructibleFrom_of c54_xlis clear_europeLisbon (by decide +kernel) (by decide)

example : TradesOn Xlis.exchange (dayOf 2019 10 16) :=
  trades_of xlis_check (by decide +kernel)

theorem xmil_check : Xmil.exchange.check [] = true := by decide +kernel

/-- C54 for `XMILExchangeCalendar`. -/
theorem c54_xmil : Constructible Xmil.exchange [] := constructible_of xmil_check

/-- C54 for `XMILExchangeCalendar` in `Europe/Rome`. -/
theorem c54_xmil_zone : ConstructibleFrom Xmil.exchange Xmil.zone (dayOf 1700 1 2) [] :=
  constructibleFrom_of c54_xmil clear_europeRome (by decide +kernel) (by decide)

example : TradesOn Xmil.exchange (dayOf 2019 10 16) :=
  trades_of xmil_check (by decide +kernel)

theorem xosl_check : Xosl.exchange.check [] = true := by decide +kernel

/-- C54 for `XOSLExchangeCalendar`. -/
theorem c54_xosl : Constructible Xosl.exchange [] := constructible_of xosl_check

/-- C54 for `XOSLExchangeCalendar` in `Europe/Oslo`. -/
theorem c54_xosl_zone : ConstructibleFrom Xosl.exchange Xosl.zone (dayOf 1700 1 2) [] :=
  constructibleFrom_of c54_xosl clear_europeOslo (by decide +kernel) (by decide)

example : TradesOn Xosl.exchange (dayOf 2019 10 16) :=
  trades_of xosl_check (by decide +kernel)

theorem xses_check : Xses.exchange.check [] = true := by decide +kernel

/-- C54 for `XSESExchangeCalendar`. -/
theorem c54_xses : Constructible Xses.exchange [] := constructible_of xses_check

/-- C54 for `XSESExchangeCalendar` in `Asia/Singapore`. -/
theorem c54_xses_zone : ConstructibleFrom Xses.exchange Xses.zone (dayOf 1700 1 2) [] :=
  constructibleFrom_of c54_xses clear_asiaSingapore (by decide +kernel) (by decide)

example : TradesOn Xses.exchange (dayOf 2019 10 16) :=
  trades_of xses_check (by decide +kernel)

theorem xswx_check : Xswx.exchange.check [] = true := by decide +kernel

/-- C54 for `XSWXExchangeCalendar`. -/
theorem c54_xswx : Constructible Xswx.exchange [] := constructible_of xswx_check

/-- C54 for `XSWXExchangeCalendar` in `Europe/Zurich`. -/
theorem c54_xswx_zone : ConstructibleFrom Xswx.exchange Xswx.zone (dayOf 1700 1 2) [] :=
  constructibleFrom_of c54_xswx clear_europeZurich (by decide +kernel) (by decide)

example : TradesOn Xswx.exchange (dayOf 2019 10 16) :=
  trades_of xswx_check (by decide +kernel)

theorem xwar_check : Xwar.exchange.check [] = true := by decide +kernel

/-- C54 for `XWARExchangeCalendar`. -/
theorem c54_xwar : Constructible Xwar.exchange [] := constructible_of xwar_check

/-- C54 for `XWARExchangeCalendar` in `Europe/Warsaw`. -/
theorem c54_xwar_zone : ConstructibleFrom Xwar.exchange Xwar.zone (dayOf 1700 1 2) [] :=
  constructibleFrom_of c54_xwar clear_europeWarsaw (by decide +kernel) (by decide)

example : TradesOn Xwar.exchange (dayOf 2019 10 16) :=
  trades_of xwar_check (by decide +kernel)

end TC.Props
