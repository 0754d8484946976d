import Verif.Model.Exchange
import Verif.Model.Exchanges.LunisolarHolidays
import Verif.Model.Zones

/-! `/repo/trading_calendars/exchange_calendar_xphs.py`, translated by `tools/gen_exchanges.py`. -/

namespace TC.Xphs

/-- `NewYearsDay`, `exchange_calendar_xphs.py` line 57. -/
def newYearsDay : Rule := TC.newYearsDay (startDate := some (dayOf 2011 1 1))

/-- `ChineseNewYear`, `exchange_calendar_xphs.py` line 60. -/
def chineseNewYear : List Int := TC.LunisolarHolidays.chineseLunarNewYearDates

/-- `ChineseNewYearAfter2011`, `exchange_calendar_xphs.py` line 62. -/
def chineseNewYearAfter2011 : List Int :=
  TC.Xphs.chineseNewYear.filter (fun d => decide (yearOf d > 2011))

/-- `PeoplePowerRevolution`, `exchange_calendar_xphs.py` lines 64-69. -/
def peoplePowerRevolution : Rule := { month := 2, day := 25, startDate := some (dayOf 2016 1 1) }

/-- `ArawNgKagitingan`, `exchange_calendar_xphs.py` lines 71-76. -/
def arawNgKagitingan : Rule := { month := 4, day := 9, startDate := some (dayOf 2011 1 1) }

/-- `MaundyThursday`, `exchange_calendar_xphs.py` line 78. -/
def maundyThursday : Rule := TC.maundyThursday (startDate := some (dayOf 2011 1 1))

/-- `LabourDay`, `exchange_calendar_xphs.py` line 80. -/
def labourDay : Rule := TC.europeanLabourDay (startDate := some (dayOf 2011 1 1))

/-- `IndependenceDay`, `exchange_calendar_xphs.py` lines 82-87. -/
def independenceDay : Rule := { month := 6, day := 12, startDate := some (dayOf 2011 1 1) }

/-- `NinoyAquinoDay`, `exchange_calendar_xphs.py` lines 89-94. -/
def ninoyAquinoDay : Rule := { month := 8, day := 21, startDate := some (dayOf 2011 1 1) }

/-- `NationalHeroesDay`, `exchange_calendar_xphs.py` lines 96-102. -/
def nationalHeroesDay : Rule :=
  { month := 8, day := 31, offsets := [.weekday 0 (-1)], startDate := some (dayOf 2011 1 1) }

/-- `AllSaintsDay`, `exchange_calendar_xphs.py` line 104. -/
def allSaintsDay : Rule := TC.allSaintsDay (startDate := some (dayOf 2011 1 1))

/-- `AllSaintsDayExtra`, `exchange_calendar_xphs.py` lines 106-112. -/
def allSaintsDayExtra : Rule :=
  { month := 11, day := 2, observance := some .onlyFriday, startDate := some (dayOf 2011 1 1) }

/-- `BonifacioDay`, `exchange_calendar_xphs.py` lines 114-119. -/
def bonifacioDay : Rule := { month := 11, day := 30, startDate := some (dayOf 2011 1 1) }

/-- `ChristmasEve`, `exchange_calendar_xphs.py` line 121. -/
def christmasEve : Rule := TC.christmasEve (startDate := some (dayOf 2011 1 1))

/-- `Christmas`, `exchange_calendar_xphs.py` line 123. -/
def christmas : Rule := TC.christmas (startDate := some (dayOf 2011 1 1))

/-- `RizalDay`, `exchange_calendar_xphs.py` lines 125-130. -/
def rizalDay : Rule := { month := 12, day := 30, startDate := some (dayOf 2011 1 1) }

/-- `NewYearsEve`, `exchange_calendar_xphs.py` line 132. -/
def newYearsEve : Rule := TC.newYearsEve (startDate := some (dayOf 2011 1 1))

/-- `philippines_eid_al_fitr`, `exchange_calendar_xphs.py` lines 138-148. -/
def philippinesEidAlFitr : List Int :=
  [dayOf 2011 8 30, dayOf 2012 8 20, dayOf 2013 8 9, dayOf 2014 7 29, dayOf 2015 7 17,
   dayOf 2016 7 6, dayOf 2017 6 26, dayOf 2018 6 15, dayOf 2019 6 5]

/-- `philippines_eid_al_adha`, `exchange_calendar_xphs.py` lines 154-164. -/
def philippinesEidAlAdha : List Int :=
  [dayOf 2011 11 7, dayOf 2012 10 26, dayOf 2013 10 15, dayOf 2014 10 6, dayOf 2015 9 25,
   dayOf 2016 9 12, dayOf 2017 9 1, dayOf 2018 8 21, dayOf 2019 8 12]

/-- `tz`, `exchange_calendar_xphs.py` line 199. -/
def zone : Tz := Zones.asiaManila

/-- `open_times`, `exchange_calendar_xphs.py` lines 201-203. -/
def openTimes : TimeTable := [(none, hm 9 31)]

/-- `close_times`, `exchange_calendar_xphs.py` lines 205-207. -/
def closeTimes : TimeTable := [(none, hm 15 30)]

/-- `regular_holidays`, `exchange_calendar_xphs.py` lines 209-228. -/
def regular : List Rule :=
  [TC.Xphs.newYearsDay, TC.Xphs.peoplePowerRevolution, TC.Xphs.arawNgKagitingan,
   TC.Xphs.maundyThursday, TC.goodFriday, TC.Xphs.labourDay, TC.Xphs.independenceDay,
   TC.Xphs.ninoyAquinoDay, TC.Xphs.nationalHeroesDay, TC.Xphs.allSaintsDay,
   TC.Xphs.allSaintsDayExtra, TC.Xphs.bonifacioDay, TC.Xphs.christmasEve, TC.Xphs.christmas,
   TC.Xphs.rizalDay, TC.Xphs.newYearsEve]

/-- `misc_adhoc`, `exchange_calendar_xphs.py` lines 232-268. -/
def miscAdhoc : List Int :=
  [dayOf 2017 4 28, dayOf 2017 10 16, dayOf 2015 11 18, dayOf 2015 11 19, dayOf 2013 8 19,
   dayOf 2013 8 20, dayOf 2013 10 28, dayOf 2011 6 20, dayOf 2019 5 13, dayOf 2018 5 14,
   dayOf 2016 5 9, dayOf 2013 5 13, dayOf 2017 9 12, dayOf 2014 12 8, dayOf 2014 9 19,
   dayOf 2014 7 16, dayOf 2012 8 7, dayOf 2011 9 27, dayOf 2015 1 15, dayOf 2015 1 16,
   dayOf 2017 12 26, dayOf 2016 12 26, dayOf 2014 12 26, dayOf 2018 1 2, dayOf 2017 1 2,
   dayOf 2015 1 2, dayOf 2017 10 31, dayOf 2016 10 31, dayOf 2011 10 31]

/-- `pre_2011_holidays`, `exchange_calendar_xphs.py` lines 275-416. -/
def pre2011Holidays : List Int :=
  [dayOf 2002 1 1, dayOf 2002 2 25, dayOf 2002 3 28, dayOf 2002 3 29, dayOf 2002 4 8,
   dayOf 2002 5 1, dayOf 2002 6 12, dayOf 2002 7 15, dayOf 2002 10 31, dayOf 2002 11 1,
   dayOf 2002 12 6, dayOf 2002 12 24, dayOf 2002 12 25, dayOf 2002 12 30, dayOf 2002 12 31,
   dayOf 2003 1 1, dayOf 2003 2 25, dayOf 2003 4 7, dayOf 2003 4 17, dayOf 2003 4 18,
   dayOf 2003 5 1, dayOf 2003 5 2, dayOf 2003 6 13, dayOf 2003 8 22, dayOf 2003 11 26,
   dayOf 2003 12 24, dayOf 2003 12 25, dayOf 2003 12 26, dayOf 2003 12 31, dayOf 2004 1 1,
   dayOf 2004 1 2, dayOf 2004 2 25, dayOf 2004 4 7, dayOf 2004 4 8, dayOf 2004 4 9, dayOf 2004 5 10,
   dayOf 2004 11 1, dayOf 2004 11 15, dayOf 2004 11 29, dayOf 2004 12 3, dayOf 2004 12 24,
   dayOf 2004 12 27, dayOf 2004 12 30, dayOf 2004 12 31, dayOf 2005 2 25, dayOf 2005 3 23,
   dayOf 2005 3 24, dayOf 2005 3 25, dayOf 2005 5 2, dayOf 2005 6 13, dayOf 2005 7 25,
   dayOf 2005 8 29, dayOf 2005 10 31, dayOf 2005 11 1, dayOf 2005 11 4, dayOf 2005 11 28,
   dayOf 2005 12 26, dayOf 2005 12 30, dayOf 2006 4 13, dayOf 2006 4 14, dayOf 2006 5 1,
   dayOf 2006 6 12, dayOf 2006 7 24, dayOf 2006 8 21, dayOf 2006 9 28, dayOf 2006 9 29,
   dayOf 2006 10 24, dayOf 2006 11 1, dayOf 2006 12 1, dayOf 2006 12 25, dayOf 2006 12 26,
   dayOf 2007 1 1, dayOf 2007 4 5, dayOf 2007 4 6, dayOf 2007 4 9, dayOf 2007 5 1, dayOf 2007 5 14,
   dayOf 2007 6 11, dayOf 2007 8 20, dayOf 2007 8 27, dayOf 2007 10 12, dayOf 2007 10 29,
   dayOf 2007 11 1, dayOf 2007 11 2, dayOf 2007 11 30, dayOf 2007 12 24, dayOf 2007 12 25,
   dayOf 2007 12 31, dayOf 2008 1 1, dayOf 2008 2 25, dayOf 2008 3 20, dayOf 2008 3 21,
   dayOf 2008 4 7, dayOf 2008 5 1, dayOf 2008 6 9, dayOf 2008 8 18, dayOf 2008 8 25,
   dayOf 2008 10 1, dayOf 2008 12 1, dayOf 2008 12 25, dayOf 2008 12 26, dayOf 2008 12 29,
   dayOf 2008 12 30, dayOf 2008 12 31, dayOf 2009 1 1, dayOf 2009 1 2, dayOf 2009 4 6,
   dayOf 2009 4 9, dayOf 2009 4 10, dayOf 2009 5 1, dayOf 2009 6 12, dayOf 2009 7 17,
   dayOf 2009 8 5, dayOf 2009 8 21, dayOf 2009 8 31, dayOf 2009 9 7, dayOf 2009 9 21,
   dayOf 2009 11 2, dayOf 2009 11 30, dayOf 2009 12 24, dayOf 2009 12 25, dayOf 2009 12 30,
   dayOf 2009 12 31, dayOf 2010 1 1, dayOf 2010 4 1, dayOf 2010 4 2, dayOf 2010 4 9, dayOf 2010 5 3,
   dayOf 2010 5 10, dayOf 2010 6 14, dayOf 2010 6 30, dayOf 2010 8 30, dayOf 2010 9 10,
   dayOf 2010 10 25, dayOf 2010 11 1, dayOf 2010 11 16, dayOf 2010 11 29, dayOf 2010 12 24,
   dayOf 2010 12 27, dayOf 2010 12 31]

/-- `adhoc_holidays`, `exchange_calendar_xphs.py` lines 230-424. -/
def adhoc : List Int :=
  miscAdhoc ++ pre2011Holidays ++ TC.Xphs.chineseNewYearAfter2011 ++
    TC.Xphs.philippinesEidAlAdha ++ TC.Xphs.philippinesEidAlFitr

/-- `XPHSExchangeCalendar`, `exchange_calendar_xphs.py` lines 167-424. -/
def exchange : Exchange :=
  { regular := TC.Xphs.regular
    adhoc := TC.Xphs.adhoc
    openTimes := TC.Xphs.openTimes
    closeTimes := TC.Xphs.closeTimes }

end TC.Xphs
