import Verif.Model.Exchange
import Verif.Model.Zones

/-! `/repo/trading_calendars/exchange_calendar_xkar.py`, translated by `tools/gen_exchanges.py`. -/

namespace TC.Xkar

/-- `tz`, `exchange_calendar_xkar.py` line 56. -/
def zone : Tz := Zones.asiaKarachi

/-- `open_times`, `exchange_calendar_xkar.py` lines 65-68. -/
def openTimes : TimeTable := [(none, hm 9 33)]

/-- `close_times`, `exchange_calendar_xkar.py` lines 70-73. -/
def closeTimes : TimeTable := [(none, hm 15 30)]

/-- `regular_holidays`, `exchange_calendar_xkar.py` lines 75-105. -/
def regular : List Rule :=
  [{ month := 2, day := 5 }, { month := 3, day := 23 }, TC.europeanLabourDay,
   { month := 8, day := 14 }, { month := 11, day := 9, endDate := some (dayOf 2013 1 1) },
   { month := 12, day := 25 }]

/-- `juma_tul_wida`, `exchange_calendar_xkar.py` lines 107-128. -/
def jumaTulWida : List Int :=
  [dayOf 2002 12 6, dayOf 2004 11 11, dayOf 2005 10 28, dayOf 2006 10 20, dayOf 2007 10 12,
   dayOf 2008 9 26, dayOf 2010 9 10, dayOf 2011 8 26, dayOf 2012 8 17, dayOf 2013 8 2,
   dayOf 2014 7 25, dayOf 2015 7 17, dayOf 2016 7 1, dayOf 2017 6 23, dayOf 2018 6 8,
   dayOf 2019 5 31, dayOf 2020 5 22]

/-- `eid_ul_fitr`, `exchange_calendar_xkar.py` lines 130-203. -/
def eidUlFitr : List Int :=
  [dayOf 2002 12 3, dayOf 2002 12 5, dayOf 2003 11 26, dayOf 2003 11 27, dayOf 2003 11 28,
   dayOf 2004 11 15, dayOf 2004 11 16, dayOf 2004 11 17, dayOf 2005 11 3, dayOf 2005 11 4,
   dayOf 2006 10 23, dayOf 2006 10 24, dayOf 2006 10 25, dayOf 2007 10 10, dayOf 2007 10 15,
   dayOf 2007 10 16, dayOf 2008 10 1, dayOf 2008 10 2, dayOf 2008 10 3, dayOf 2009 9 21,
   dayOf 2009 9 22, dayOf 2009 9 23, dayOf 2010 9 13, dayOf 2011 8 31, dayOf 2011 9 1,
   dayOf 2011 9 2, dayOf 2012 8 20, dayOf 2012 8 21, dayOf 2012 8 22, dayOf 2013 8 8,
   dayOf 2013 8 9, dayOf 2014 7 29, dayOf 2014 7 30, dayOf 2014 7 31, dayOf 2014 8 1,
   dayOf 2015 7 20, dayOf 2015 7 21, dayOf 2016 7 5, dayOf 2016 7 6, dayOf 2016 7 7, dayOf 2016 7 8,
   dayOf 2017 6 26, dayOf 2017 6 27, dayOf 2017 6 28, dayOf 2018 6 15, dayOf 2018 6 18,
   dayOf 2019 6 4, dayOf 2019 6 5, dayOf 2019 6 6, dayOf 2019 6 7, dayOf 2020 5 25, dayOf 2020 5 26,
   dayOf 2020 5 27]

/-- `eid_ul_azha`, `exchange_calendar_xkar.py` lines 205-279. -/
def eidUlAzha : List Int :=
  [dayOf 2002 2 25, dayOf 2003 2 11, dayOf 2003 2 12, dayOf 2003 2 13, dayOf 2003 2 14,
   dayOf 2004 2 2, dayOf 2004 2 3, dayOf 2004 2 4, dayOf 2005 1 20, dayOf 2005 1 21,
   dayOf 2006 1 10, dayOf 2006 1 11, dayOf 2006 1 12, dayOf 2006 1 13, dayOf 2007 1 1,
   dayOf 2007 1 2, dayOf 2007 12 20, dayOf 2007 12 21, dayOf 2008 12 8, dayOf 2008 12 9,
   dayOf 2008 12 10, dayOf 2008 12 11, dayOf 2009 11 27, dayOf 2009 11 30, dayOf 2010 11 17,
   dayOf 2010 11 18, dayOf 2010 11 19, dayOf 2011 11 7, dayOf 2011 11 8, dayOf 2012 10 26,
   dayOf 2013 10 15, dayOf 2013 10 16, dayOf 2013 10 17, dayOf 2013 10 18, dayOf 2014 10 6,
   dayOf 2014 10 7, dayOf 2014 10 8, dayOf 2015 9 24, dayOf 2015 9 25, dayOf 2016 9 12,
   dayOf 2016 9 13, dayOf 2016 9 14, dayOf 2017 9 1, dayOf 2017 9 4, dayOf 2018 8 21,
   dayOf 2018 8 22, dayOf 2018 8 23, dayOf 2019 8 12, dayOf 2019 8 13, dayOf 2019 8 15,
   dayOf 2020 7 31]

/-- `ashura`, `exchange_calendar_xkar.py` lines 281-320. -/
def ashura : List Int :=
  [dayOf 2002 3 25, dayOf 2003 3 13, dayOf 2003 3 14, dayOf 2004 3 1, dayOf 2004 3 2,
   dayOf 2006 2 8, dayOf 2006 2 9, dayOf 2009 1 7, dayOf 2009 1 8, dayOf 2009 12 28,
   dayOf 2010 12 16, dayOf 2010 12 17, dayOf 2011 12 5, dayOf 2011 12 6, dayOf 2013 11 14,
   dayOf 2013 11 15, dayOf 2014 11 3, dayOf 2014 11 4, dayOf 2015 10 23, dayOf 2016 10 11,
   dayOf 2016 10 12, dayOf 2018 9 20, dayOf 2018 9 21, dayOf 2019 9 9, dayOf 2019 9 10]

/-- `eid_milad_un_nabi`, `exchange_calendar_xkar.py` lines 322-339. -/
def eidMiladUnNabi : List Int :=
  [dayOf 2002 5 23, dayOf 2003 5 15, dayOf 2005 4 22, dayOf 2006 4 11, dayOf 2008 3 21,
   dayOf 2009 3 10, dayOf 2011 2 16, dayOf 2013 1 25, dayOf 2014 1 14, dayOf 2015 12 24,
   dayOf 2016 12 12, dayOf 2017 12 1, dayOf 2018 11 21, dayOf 2020 10 30]

/-- `new_years_day`, `exchange_calendar_xkar.py` lines 341-365. -/
def newYearsDay : List Int := [dayOf 2002 1 1, dayOf 2004 1 1, dayOf 2010 1 1]

/-- `miscellaneous_closures`, `exchange_calendar_xkar.py` lines 367-395. -/
def miscellaneousClosures : List Int :=
  [dayOf 2002 2 22, dayOf 2002 10 10, dayOf 2003 4 10, dayOf 2004 5 3, dayOf 2005 8 18,
   dayOf 2005 11 1, dayOf 2006 4 12, dayOf 2006 10 26, dayOf 2006 10 27, dayOf 2007 1 29,
   dayOf 2007 1 30, dayOf 2007 12 28, dayOf 2008 2 18, dayOf 2011 11 11, dayOf 2011 10 24,
   dayOf 2012 10 29, dayOf 2012 9 21, dayOf 2018 7 25]

/-- `adhoc_holidays`, `exchange_calendar_xkar.py` lines 397-407. -/
def adhoc : List Int :=
  newYearsDay ++ jumaTulWida ++ eidUlFitr ++ eidUlAzha ++ ashura ++ eidMiladUnNabi ++
    miscellaneousClosures

/-- `XKARExchangeCalendar`, `exchange_calendar_xkar.py` lines 27-407. -/
def exchange : Exchange :=
  { regular := TC.Xkar.regular
    adhoc := TC.Xkar.adhoc
    openTimes := TC.Xkar.openTimes
    closeTimes := TC.Xkar.closeTimes }

end TC.Xkar
