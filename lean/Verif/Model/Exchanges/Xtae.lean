import Verif.Model.Exchange
import Verif.Model.Zones
import Verif.Model.Hebrew

/-! `/repo/trading_calendars/exchange_calendar_xtae.py` and the holidays of `tase_holidays.py`. -/

namespace TC.Xtae
open TaseHolidays

/-- `regular_holidays`, `exchange_calendar_xtae.py` lines 84-106, with the holidays of
`tase_holidays.py` lines 325-353. -/
def regular : List Rule :=
  [holiday purim none,               -- Purim
   holiday passover (some (-1)),     -- PassoverEve
   holiday passover none,            -- Passover
   holiday passover (some 5),        -- Passover2Eve
   holiday passover (some 6),        -- Passover2
   holiday memorialDay none,         -- MemorialDay
   holiday memorialDay (some 1),     -- IndependenceDay
   holiday pentecost (some (-1)),    -- PentecostEve
   holiday pentecost none,           -- Pentecost
   holiday fastDay none,             -- FastDay
   holiday newYear (some (-1)),      -- NewYearsEve
   holiday newYear none,             -- NewYear
   holiday newYear (some 1),         -- NewYear2
   holiday yomKippur (some (-1)),    -- YomKippurEve
   holiday yomKippur none,           -- YomKippur
   holiday sukkoth (some (-1)),      -- SukkothEve
   holiday sukkoth none,             -- Sukkoth
   holiday simchatTorah (some (-1)), -- SimchatTorahEve
   holiday simchatTorah none]        -- SimchatTorah

/-- `adhoc_holidays`, `exchange_calendar_xtae.py` lines 108-122.  (The timestamps are midnights in
Jerusalem; `CustomBusinessDay` takes their local dates.) -/
def adhoc : List Int := [dayOf 2019 4 9, dayOf 2019 9 17, dayOf 2020 3 2, dayOf 2021 3 23]

/-- `tz`, `exchange_calendar_xtae.py` line 74. -/
def zone : Tz := Zones.asiaTelAviv

/-- `open_times`, `exchange_calendar_xtae.py` lines 76-78. -/
def openTimes : TimeTable := [(none, hm 10 0)]

/-- `close_times`, `exchange_calendar_xtae.py` lines 80-82. -/
def closeTimes : TimeTable := [(none, hm 17 15)]

/-- `weekmask`, `exchange_calendar_xtae.py` lines 124-126: `'1111001'`. -/
def weekdays : List Int := [0, 1, 2, 3, 6]

/-- `XTAEExchangeCalendar`, `exchange_calendar_xtae.py` lines 30-126.  (Its `start_date` attribute is
not used by anything.) -/
def exchange : Exchange :=
  { regular := TC.Xtae.regular
    adhoc := TC.Xtae.adhoc
    weekdays := TC.Xtae.weekdays
    openTimes := TC.Xtae.openTimes
    closeTimes := TC.Xtae.closeTimes }

end TC.Xtae
