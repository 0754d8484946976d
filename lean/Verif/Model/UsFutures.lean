import Verif.Model.Calendar

/-!
# Model of `us_futures_calendar.py`: the execution-time offsets
-/

namespace TC

/-- One hour in nanoseconds (`Timedelta(hours=1).value`) (`us_futures_calendar.py` lines 64 and 67). -/
def HOUR : Int := 60 * MINUTE

/-- `QuantopianUSFuturesCalendar.execution_time_from_open`, `us_futures_calendar.py` lines 63-64,
with `FUTURES_OPEN_TIME_OFFSET = 12.5` (line 20) hours. -/
def usFuturesFromOpen (t : Int) : Int := t + 750 * MINUTE

/-- `QuantopianUSFuturesCalendar.execution_time_from_close`, `us_futures_calendar.py` lines 66-67,
with `FUTURES_CLOSE_TIME_OFFSET = -1` (line 21) hour. -/
def usFuturesFromClose (t : Int) : Int := t - HOUR

/-- `TradingCalendar.execution_time_from_open`, `trading_calendar.py` lines 926-927. -/
def defaultFromOpen (t : Int) : Int := t

/-- `TradingCalendar.execution_time_from_close`, `trading_calendar.py` lines 929-930. -/
def defaultFromClose (t : Int) : Int := t

end TC
