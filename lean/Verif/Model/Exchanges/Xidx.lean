import Verif.Model.Exchange
import Verif.Model.Exchanges.LunisolarHolidays
import Verif.Model.Zones

/-! `/repo/trading_calendars/exchange_calendar_xidx.py`, translated by `tools/gen_exchanges.py`. -/

namespace TC.Xidx

/-- `tz`, `exchange_calendar_xidx.py` line 68. -/
def zone : Tz := Zones.asiaJakarta

/-- `open_times`, `exchange_calendar_xidx.py` lines 70-72. -/
def openTimes : TimeTable := [(none, hm 9 1)]

/-- `close_times`, `exchange_calendar_xidx.py` lines 74-76. -/
def closeTimes : TimeTable := [(none, hm 15 50)]

/-- `regular_holidays`, `exchange_calendar_xidx.py` lines 78-110. -/
def regular : List Rule :=
  [TC.newYearsDay, TC.goodFriday, { month := 5, day := 1, startDate := some (dayOf 2014 5 1) },
   TC.ascensionDay (endDate := some (dayOf 2003 1 1)),
   TC.ascensionDay (startDate := some (dayOf 2004 1 1)),
   { month := 6, day := 1, startDate := some (dayOf 2017 6 1) }, { month := 8, day := 17 },
   TC.christmas, TC.newYearsEve]

/-- `chinese_new_year`, `exchange_calendar_xidx.py` lines 112-116. -/
def chineseNewYear : List Int :=
  TC.LunisolarHolidays.chineseLunarNewYearDates.filter (fun d => decide (yearOf d ≥ 2002))

/-- `common_leave`, `exchange_calendar_xidx.py` lines 118-160. -/
def commonLeave : List Int :=
  [dayOf 2002 12 30, dayOf 2005 12 30, dayOf 2009 1 2, dayOf 2017 1 2, dayOf 2008 2 8,
   dayOf 2003 5 30, dayOf 2006 5 26, dayOf 2007 5 18, dayOf 2003 8 18, dayOf 2006 8 18,
   dayOf 2008 8 18, dayOf 2002 12 24, dayOf 2002 12 26, dayOf 2003 12 24, dayOf 2003 12 26,
   dayOf 2004 12 24, dayOf 2005 12 26, dayOf 2007 12 24, dayOf 2009 12 24, dayOf 2010 12 24,
   dayOf 2011 12 26, dayOf 2012 12 24, dayOf 2013 12 26, dayOf 2014 12 26, dayOf 2016 12 26,
   dayOf 2017 12 26, dayOf 2018 12 24, dayOf 2019 12 24, dayOf 2020 12 24]

/-- `islamic_new_year`, `exchange_calendar_xidx.py` lines 162-182. -/
def islamicNewYear : List Int :=
  [dayOf 2002 3 15, dayOf 2003 3 3, dayOf 2004 2 23, dayOf 2005 2 10, dayOf 2006 1 31,
   dayOf 2008 1 10, dayOf 2008 1 11, dayOf 2008 12 29, dayOf 2009 12 18, dayOf 2010 12 7,
   dayOf 2012 11 15, dayOf 2012 11 16, dayOf 2013 11 5, dayOf 2015 10 14, dayOf 2017 9 21,
   dayOf 2018 9 11, dayOf 2020 8 20]

/-- `eid_al_fitr`, `exchange_calendar_xidx.py` lines 184-294. -/
def eidAlFitr : List Int :=
  [dayOf 2002 12 5, dayOf 2002 12 6, dayOf 2002 12 9, dayOf 2002 12 10, dayOf 2003 11 24,
   dayOf 2003 11 25, dayOf 2003 11 26, dayOf 2003 11 27, dayOf 2003 11 28, dayOf 2004 11 15,
   dayOf 2004 11 16, dayOf 2004 11 17, dayOf 2004 11 18, dayOf 2004 11 19, dayOf 2005 11 2,
   dayOf 2005 11 3, dayOf 2005 11 4, dayOf 2005 11 7, dayOf 2005 11 8, dayOf 2006 10 23,
   dayOf 2006 10 24, dayOf 2006 10 25, dayOf 2006 10 26, dayOf 2006 10 27, dayOf 2007 10 12,
   dayOf 2007 10 15, dayOf 2007 10 16, dayOf 2008 9 30, dayOf 2008 10 1, dayOf 2008 10 2,
   dayOf 2008 10 3, dayOf 2009 9 18, dayOf 2009 9 21, dayOf 2009 9 22, dayOf 2009 9 23,
   dayOf 2010 9 8, dayOf 2010 9 9, dayOf 2010 9 10, dayOf 2010 9 13, dayOf 2010 9 14,
   dayOf 2011 8 29, dayOf 2011 8 30, dayOf 2011 8 31, dayOf 2011 9 1, dayOf 2011 9 2,
   dayOf 2012 8 20, dayOf 2012 8 21, dayOf 2012 8 22, dayOf 2013 8 5, dayOf 2013 8 6,
   dayOf 2013 8 7, dayOf 2013 8 8, dayOf 2013 8 9, dayOf 2014 7 28, dayOf 2014 7 29,
   dayOf 2014 7 30, dayOf 2014 7 31, dayOf 2014 8 1, dayOf 2015 7 16, dayOf 2015 7 17,
   dayOf 2015 7 20, dayOf 2015 7 21, dayOf 2016 7 4, dayOf 2016 7 5, dayOf 2016 7 6, dayOf 2016 7 7,
   dayOf 2016 7 8, dayOf 2017 6 23, dayOf 2017 6 26, dayOf 2017 6 27, dayOf 2017 6 28,
   dayOf 2017 6 29, dayOf 2017 6 30, dayOf 2018 6 11, dayOf 2018 6 12, dayOf 2018 6 13,
   dayOf 2018 6 14, dayOf 2018 6 15, dayOf 2018 6 18, dayOf 2018 6 19, dayOf 2019 6 3,
   dayOf 2019 6 4, dayOf 2019 6 5, dayOf 2019 6 6, dayOf 2019 6 7, dayOf 2020 5 22, dayOf 2020 5 25,
   dayOf 2020 5 26, dayOf 2020 5 27]

/-- `eid_al_adha`, `exchange_calendar_xidx.py` lines 296-322. -/
def eidAlAdha : List Int :=
  [dayOf 2002 2 22, dayOf 2003 2 12, dayOf 2004 2 2, dayOf 2005 1 21, dayOf 2006 1 10,
   dayOf 2006 12 29, dayOf 2007 12 20, dayOf 2007 12 21, dayOf 2008 12 8, dayOf 2009 11 27,
   dayOf 2009 11 28, dayOf 2010 11 17, dayOf 2012 10 26, dayOf 2013 10 14, dayOf 2013 10 15,
   dayOf 2015 9 24, dayOf 2016 9 12, dayOf 2017 9 1, dayOf 2018 8 22, dayOf 2020 7 31]

/-- `isra_mikraj`, `exchange_calendar_xidx.py` lines 324-350. -/
def israMikraj : List Int :=
  [dayOf 2002 10 4, dayOf 2003 9 22, dayOf 2004 9 13, dayOf 2005 9 2, dayOf 2006 8 21,
   dayOf 2008 7 30, dayOf 2009 7 20, dayOf 2011 6 29, dayOf 2012 5 18, dayOf 2013 6 6,
   dayOf 2014 5 27, dayOf 2016 5 6, dayOf 2017 4 24, dayOf 2019 4 3]

/-- `birth_of_prophet_muhammad`, `exchange_calendar_xidx.py` lines 352-370. -/
def birthOfProphetMuhammad : List Int :=
  [dayOf 2003 5 15, dayOf 2004 5 3, dayOf 2005 4 22, dayOf 2006 4 10, dayOf 2008 3 20,
   dayOf 2009 3 9, dayOf 2010 2 26, dayOf 2011 2 15, dayOf 2013 1 24, dayOf 2014 1 14,
   dayOf 2015 12 24, dayOf 2016 12 12, dayOf 2017 12 1, dayOf 2018 11 20, dayOf 2020 10 29]

/-- `vesak_day`, `exchange_calendar_xidx.py` lines 372-388. -/
def vesakDay : List Int :=
  [dayOf 2003 5 16, dayOf 2004 6 3, dayOf 2005 5 24, dayOf 2007 6 1, dayOf 2008 5 20,
   dayOf 2010 5 28, dayOf 2011 5 17, dayOf 2014 5 15, dayOf 2015 6 2, dayOf 2017 5 11,
   dayOf 2018 5 29, dayOf 2020 5 7]

/-- `hindu_saka_new_year`, `exchange_calendar_xidx.py` lines 390-409. -/
def hinduSakaNewYear : List Int :=
  [dayOf 2003 4 2, dayOf 2004 3 22, dayOf 2005 3 11, dayOf 2006 3 30, dayOf 2006 3 31,
   dayOf 2007 3 19, dayOf 2008 3 7, dayOf 2009 3 26, dayOf 2010 3 16, dayOf 2012 3 23,
   dayOf 2013 3 12, dayOf 2014 3 31, dayOf 2016 3 9, dayOf 2017 3 28, dayOf 2019 3 7,
   dayOf 2020 3 25]

/-- `spontaneous_closures`, `exchange_calendar_xidx.py` lines 411-415. -/
def spontaneousClosures : List Int := [dayOf 2008 10 9, dayOf 2008 10 10]

/-- `election_holidays`, `exchange_calendar_xidx.py` lines 417-430. -/
def electionHolidays : List Int :=
  [dayOf 2004 4 5, dayOf 2004 7 5, dayOf 2004 9 20, dayOf 2009 4 9, dayOf 2009 7 8, dayOf 2014 4 9,
   dayOf 2014 7 9, dayOf 2015 12 9, dayOf 2017 2 15, dayOf 2017 4 19, dayOf 2019 4 17]

/-- `adhoc_holidays`, `exchange_calendar_xidx.py` lines 432-446. -/
def adhoc : List Int :=
  chineseNewYear ++ commonLeave ++ islamicNewYear ++ eidAlFitr ++ eidAlAdha ++ israMikraj ++
    birthOfProphetMuhammad ++ vesakDay ++ hinduSakaNewYear ++ spontaneousClosures ++
    electionHolidays

/-- `XIDXExchangeCalendar`, `exchange_calendar_xidx.py` lines 38-446. -/
def exchange : Exchange :=
  { regular := TC.Xidx.regular
    adhoc := TC.Xidx.adhoc
    openTimes := TC.Xidx.openTimes
    closeTimes := TC.Xidx.closeTimes }

end TC.Xidx
