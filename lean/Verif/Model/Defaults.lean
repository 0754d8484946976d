import Verif.Model.Exchanges.Asex
import Verif.Model.Exchanges.Bvmf
import Verif.Model.Exchanges.Cmes
import Verif.Model.Exchanges.Iepa
import Verif.Model.Exchanges.UsFuturesCalendar
import Verif.Model.Exchanges.Xams
import Verif.Model.Exchanges.Xasx
import Verif.Model.Exchanges.Xbkk
import Verif.Model.Exchanges.Xbog
import Verif.Model.Exchanges.Xbom
import Verif.Model.Exchanges.Xbru
import Verif.Model.Exchanges.Xbud
import Verif.Model.Exchanges.Xbue
import Verif.Model.Exchanges.Xcbf
import Verif.Model.Exchanges.Xcse
import Verif.Model.Exchanges.Xdub
import Verif.Model.Exchanges.Xetr
import Verif.Model.Exchanges.Xfra
import Verif.Model.Exchanges.Xhel
import Verif.Model.Exchanges.Xhkg
import Verif.Model.Exchanges.Xice
import Verif.Model.Exchanges.Xidx
import Verif.Model.Exchanges.Xist
import Verif.Model.Exchanges.Xjse
import Verif.Model.Exchanges.Xkar
import Verif.Model.Exchanges.Xkls
import Verif.Model.Exchanges.Xkrx
import Verif.Model.Exchanges.Xlim
import Verif.Model.Exchanges.Xlis
import Verif.Model.Exchanges.Xlon
import Verif.Model.Exchanges.Xmad
import Verif.Model.Exchanges.Xmex
import Verif.Model.Exchanges.Xmil
import Verif.Model.Exchanges.Xmos
import Verif.Model.Exchanges.Xnys
import Verif.Model.Exchanges.Xnze
import Verif.Model.Exchanges.Xosl
import Verif.Model.Exchanges.Xpar
import Verif.Model.Exchanges.Xphs
import Verif.Model.Exchanges.Xpra
import Verif.Model.Exchanges.Xses
import Verif.Model.Exchanges.Xsgo
import Verif.Model.Exchanges.Xshg
import Verif.Model.Exchanges.Xsto
import Verif.Model.Exchanges.Xswx
import Verif.Model.Exchanges.Xtae
import Verif.Model.Exchanges.Xtai
import Verif.Model.Exchanges.Xtks
import Verif.Model.Exchanges.Xtse
import Verif.Model.Exchanges.Xwar
import Verif.Model.Exchanges.Xwbo
import Verif.Model.Construct
import Verif.Model.Dispatcher
import Verif.Model.SimpleCalendars

/-!
# The default calendars, as constructed by the dispatcher

`get_calendar` calls the class without arguments (`calendar_utils.py` lines 170-200), so the range is the
default one: from the class's default start to `end_default`.
-/

namespace TC

/-- `start_default`, `trading_calendar.py` line 43. -/
def startDefault : Int := dayOf 1990 1 1 * DAY

/-- `XTKS_START_DEFAULT`, `exchange_calendar_xtks.py` lines 52 and 85-88, and the default start of
`QuantopianUSFuturesCalendar`, `us_futures_calendar.py` lines 48-51. -/
def start2000 : Int := dayOf 2000 1 1 * DAY

/-- `end_default`, `trading_calendar.py` lines 44-47: 365 days after `now`, the instant at which the module
was imported (not a midnight). -/
def endDefault (now : Int) : Int := now + 365 * DAY

/-- A calendar class, as far as its constructor goes (a value of `_default_calendar_factories`, `calendar_utils.py`
lines 62-117). -/
inductive CalendarClass where
  /-- a subclass of `TradingCalendar` with the given default start -/
  | exchange (x : Exchange) (z : Tz) (start : Int)
  /-- a subclass of `PrecomputedTradingCalendar` -/
  | precomputed (x : Exchange) (z : Tz)
  /-- `XHKGExchangeCalendar` -/
  | hongKong
  /-- a calendar without holidays, in UTC -/
  | simple (cfg : Config)

/-- Calling the class without arguments (`factory()`, `calendar_utils.py` line 199). -/
def CalendarClass.construct (now : Int) : CalendarClass → Py Built
  | .exchange x z start => build (x.config z) start (endDefault now)
  | .precomputed x z => x.precomputedInit z none none
  | .hongKong => Xhkg.init Xhkg.zone startDefault (endDefault now)
  | .simple cfg => build cfg startDefault (endDefault now)

/-- Calling the class with bounds: `TradingCalendar.__init__`, `trading_calendar.py` line 100; the
subclasses with a constructor of their own are `PrecomputedTradingCalendar`,
`precomputed_trading_calendar.py` lines 13-48, `XHKGExchangeCalendar`, `exchange_calendar_xhkg.py` lines
297-326, and two whose constructors only set default bounds, `exchange_calendar_xtks.py` lines 85-88 and
`us_futures_calendar.py` lines 48-51. -/
def CalendarClass.constructFor (start stop : Int) : CalendarClass → Py Built
  | .exchange x z _ => build (x.config z) start stop
  | .precomputed x z => x.precomputedInit z (some start) (some stop)
  | .hongKong => Xhkg.init Xhkg.zone start stop
  | .simple cfg => build cfg start stop

/-- `_default_calendar_factories`, `calendar_utils.py` lines 62-118. -/
def defaultClasses : Dict CalendarClass :=
  [("ASEX", .exchange Asex.exchange Asex.zone startDefault),
   ("BVMF", .exchange Bvmf.exchange Bvmf.zone startDefault),
   ("CMES", .exchange Cmes.exchange Cmes.zone startDefault),
   ("IEPA", .exchange Iepa.exchange Iepa.zone startDefault),
   ("XAMS", .exchange Xams.exchange Xams.zone startDefault),
   ("XASX", .exchange Xasx.exchange Xasx.zone startDefault),
   ("XBKK", .exchange Xbkk.exchange Xbkk.zone startDefault),
   ("XBOG", .exchange Xbog.exchange Xbog.zone startDefault),
   ("XBOM", .precomputed Xbom.exchange Xbom.zone),
   ("XBRU", .exchange Xbru.exchange Xbru.zone startDefault),
   ("XBUD", .exchange Xbud.exchange Xbud.zone startDefault),
   ("XBUE", .exchange Xbue.exchange Xbue.zone startDefault),
   ("XCBF", .exchange Xcbf.exchange Xcbf.zone startDefault),
   ("XCSE", .exchange Xcse.exchange Xcse.zone startDefault),
   ("XDUB", .exchange Xdub.exchange Xdub.zone startDefault),
   ("XFRA", .exchange Xfra.exchange Xfra.zone startDefault),
   ("XETR", .exchange Xetr.exchange Xetr.zone startDefault),
   ("XHEL", .exchange Xhel.exchange Xhel.zone startDefault),
   ("XHKG", .hongKong),
   ("XICE", .exchange Xice.exchange Xice.zone startDefault),
   ("XIDX", .exchange Xidx.exchange Xidx.zone startDefault),
   ("XIST", .exchange Xist.exchange Xist.zone startDefault),
   ("XJSE", .exchange Xjse.exchange Xjse.zone startDefault),
   ("XKAR", .exchange Xkar.exchange Xkar.zone startDefault),
   ("XKLS", .exchange Xkls.exchange Xkls.zone startDefault),
   ("XKRX", .precomputed Xkrx.exchange Xkrx.zone),
   ("XLIM", .exchange Xlim.exchange Xlim.zone startDefault),
   ("XLIS", .exchange Xlis.exchange Xlis.zone startDefault),
   ("XLON", .exchange Xlon.exchange Xlon.zone startDefault),
   ("XMAD", .exchange Xmad.exchange Xmad.zone startDefault),
   ("XMEX", .exchange Xmex.exchange Xmex.zone startDefault),
   ("XMIL", .exchange Xmil.exchange Xmil.zone startDefault),
   ("XMOS", .exchange Xmos.exchange Xmos.zone startDefault),
   ("XNYS", .exchange Xnys.exchange Xnys.zone startDefault),
   ("XNZE", .exchange Xnze.exchange Xnze.zone startDefault),
   ("XOSL", .exchange Xosl.exchange Xosl.zone startDefault),
   ("XPAR", .exchange Xpar.exchange Xpar.zone startDefault),
   ("XPHS", .exchange Xphs.exchange Xphs.zone startDefault),
   ("XPRA", .exchange Xpra.exchange Xpra.zone startDefault),
   ("XSES", .precomputed Xses.exchange Xses.zone),
   ("XSGO", .exchange Xsgo.exchange Xsgo.zone startDefault),
   ("XSHG", .precomputed Xshg.exchange Xshg.zone),
   ("XSTO", .exchange Xsto.exchange Xsto.zone startDefault),
   ("XSWX", .exchange Xswx.exchange Xswx.zone startDefault),
   ("XTAE", .exchange Xtae.exchange Xtae.zone startDefault),
   ("XTAI", .exchange Xtai.exchange Xtai.zone startDefault),
   ("XTKS", .exchange Xtks.exchange Xtks.zone start2000),
   ("XTSE", .exchange Xtse.exchange Xtse.zone startDefault),
   ("XWAR", .exchange Xwar.exchange Xwar.zone startDefault),
   ("XWBO", .exchange Xwbo.exchange Xwbo.zone startDefault),
   ("us_futures", .exchange UsFuturesCalendar.exchange UsFuturesCalendar.zone start2000),
   ("24/7", .simple alwaysOpen),
   ("24/5", .simple weekdayCalendar)]

end TC
