import Verif.Model.Exchange
import Verif.Model.Zones

/-! `/repo/trading_calendars/exchange_calendar_xbue.py`, translated by `tools/gen_exchanges.py`. -/

namespace TC.Xbue

/-- `NewYearsDay`, `exchange_calendar_xbue.py` line 82. -/
def newYearsDay : Rule := TC.newYearsDay

/-- `CarnivalMonday`, `exchange_calendar_xbue.py` lines 84-90. -/
def carnivalMonday : Rule :=
  { month := 1, day := 1, offsets := [.easter, .days (-48)], startDate := some (dayOf 2011 1 1) }

/-- `CarnivalTuesday`, `exchange_calendar_xbue.py` lines 92-98. -/
def carnivalTuesday : Rule :=
  { month := 1, day := 1, offsets := [.easter, .days (-47)], startDate := some (dayOf 2011 1 1) }

/-- `TruthAndJusticeMemorialDay`, `exchange_calendar_xbue.py` lines 100-105. -/
def truthAndJusticeMemorialDay : Rule :=
  { month := 3, day := 24, startDate := some (dayOf 2005 1 1) }

/-- `MalvinasDayTo2004`, `exchange_calendar_xbue.py` lines 107-113. -/
def malvinasDayTo2004 : Rule :=
  { month := 3, day := 31, offsets := [.weekday 0 1], endDate := some (dayOf 2005 1 1) }

/-- `MalvinasDayFrom2005`, `exchange_calendar_xbue.py` lines 115-120. -/
def malvinasDayFrom2005 : Rule := { month := 4, day := 2, startDate := some (dayOf 2005 1 1) }

/-- `MaundyThursday`, `exchange_calendar_xbue.py` line 122. -/
def maundyThursday : Rule := TC.maundyThursday

/-- `LabourDay`, `exchange_calendar_xbue.py` line 124. -/
def labourDay : Rule := TC.europeanLabourDay

/-- `MayDayRevolution`, `exchange_calendar_xbue.py` lines 126-130. -/
def mayDayRevolution : Rule := { month := 5, day := 25 }

/-- `MartinMiguelDeGuemesDay`, `exchange_calendar_xbue.py` lines 132-137. -/
def martinMiguelDeGuemesDay : Rule := { month := 6, day := 17, startDate := some (dayOf 2016 1 1) }

/-- `NationalFlagDayTo2010`, `exchange_calendar_xbue.py` lines 139-145. -/
def nationalFlagDayTo2010 : Rule :=
  { month := 6, day := 1, offsets := [.weekday 0 3], endDate := some (dayOf 2011 1 1) }

/-- `NationalFlagDayFrom2011`, `exchange_calendar_xbue.py` lines 147-152. -/
def nationalFlagDayFrom2011 : Rule := { month := 6, day := 20, startDate := some (dayOf 2011 1 1) }

/-- `IndependenceDay`, `exchange_calendar_xbue.py` lines 154-158. -/
def independenceDay : Rule := { month := 7, day := 9 }

/-- `SanMartinsDayTo2010`, `exchange_calendar_xbue.py` lines 160-166. -/
def sanMartinsDayTo2010 : Rule :=
  { month := 8, day := 1, offsets := [.weekday 0 3], endDate := some (dayOf 2011 1 1) }

/-- `SanMartinsDayFrom2012`, `exchange_calendar_xbue.py` lines 168-174. -/
def sanMartinsDayFrom2012 : Rule :=
  { month := 8, day := 1, offsets := [.weekday 0 3], startDate := some (dayOf 2012 1 1) }

/-- `DayOfRespectForCulturalDiversity`, `exchange_calendar_xbue.py` lines 176-181. -/
def dayOfRespectForCulturalDiversity : Rule :=
  { month := 10, day := 12, observance := some .culturalDiversity }

/-- `BankHoliday`, `exchange_calendar_xbue.py` lines 183-188. -/
def bankHoliday : Rule := { month := 11, day := 6, endDate := some (dayOf 2018 1 1) }

/-- `DayOfNationalSovereigntyTo2014`, `exchange_calendar_xbue.py` lines 190-197. -/
def dayOfNationalSovereigntyTo2014 : Rule :=
  { month := 11, day := 1, offsets := [.weekday 0 4], startDate := some (dayOf 2010 1 1),
    endDate := some (dayOf 2015 1 1) }

/-- `DayOfNationalSovereigntyFrom2017`, `exchange_calendar_xbue.py` lines 199-205. -/
def dayOfNationalSovereigntyFrom2017 : Rule :=
  { month := 11, day := 17, offsets := [.weekday 0 1], startDate := some (dayOf 2017 1 1) }

/-- `ImmaculateConception`, `exchange_calendar_xbue.py` line 207. -/
def immaculateConception : Rule := TC.immaculateConception

/-- `ChristmasEve`, `exchange_calendar_xbue.py` lines 209-212. -/
def christmasEve : Rule :=
  TC.christmasEve (daysOfWeek := some [0, 1, 2, 3, 4]) (observance := some (.notYear 2018))

/-- `ChristmasDay`, `exchange_calendar_xbue.py` line 214. -/
def christmasDay : Rule := TC.christmas

/-- `NewYearsEve`, `exchange_calendar_xbue.py` lines 216-222. -/
def newYearsEve : Rule :=
  { month := 12, day := 31, observance := some (.notYear 2018), daysOfWeek := some [0, 1, 2, 3,
    4] }

/-- `tz`, `exchange_calendar_xbue.py` line 261. -/
def zone : Tz := Zones.americaArgentinaBuenosAires

/-- `open_times`, `exchange_calendar_xbue.py` lines 263-265. -/
def openTimes : TimeTable := [(none, hm 11 1)]

/-- `close_times`, `exchange_calendar_xbue.py` lines 267-269. -/
def closeTimes : TimeTable := [(none, hm 17 0)]

/-- `regular_early_close`, `exchange_calendar_xbue.py` line 272. -/
def regularEarlyClose : Int := hm 13 0

/-- `regular_holidays`, `exchange_calendar_xbue.py` lines 274-299. -/
def regular : List Rule :=
  [TC.Xbue.newYearsDay, TC.Xbue.carnivalMonday, TC.Xbue.carnivalTuesday,
   TC.Xbue.truthAndJusticeMemorialDay, TC.Xbue.malvinasDayTo2004, TC.Xbue.malvinasDayFrom2005,
   TC.Xbue.maundyThursday, TC.goodFriday, TC.Xbue.labourDay, TC.Xbue.mayDayRevolution,
   TC.Xbue.martinMiguelDeGuemesDay, TC.Xbue.nationalFlagDayTo2010, TC.Xbue.nationalFlagDayFrom2011,
   TC.Xbue.independenceDay, TC.Xbue.sanMartinsDayTo2010, TC.Xbue.sanMartinsDayFrom2012,
   TC.Xbue.dayOfRespectForCulturalDiversity, TC.Xbue.bankHoliday,
   TC.Xbue.dayOfNationalSovereigntyTo2014, TC.Xbue.dayOfNationalSovereigntyFrom2017,
   TC.Xbue.immaculateConception, TC.Xbue.christmasDay]

/-- `misc_adhocs`, `exchange_calendar_xbue.py` lines 303-313. -/
def miscAdhocs : List Int :=
  [dayOf 2009 7 10, dayOf 2010 5 24, dayOf 2010 10 27, dayOf 2012 1 2, dayOf 2012 2 27,
   dayOf 2012 9 24, dayOf 2013 1 31, dayOf 2013 2 20, dayOf 2018 11 30]

/-- `market_closures_2002_jan`, `exchange_calendar_xbue.py` lines 316-318. -/
def marketClosures2002Jan : List Int :=
  [dayOf 2002 1 7, dayOf 2002 1 8, dayOf 2002 1 9, dayOf 2002 1 10, dayOf 2002 1 11,
   dayOf 2002 1 12, dayOf 2002 1 13, dayOf 2002 1 14, dayOf 2002 1 15, dayOf 2002 1 16]

/-- `market_closures_2002_apr`, `exchange_calendar_xbue.py` lines 321-323. -/
def marketClosures2002Apr : List Int :=
  [dayOf 2002 4 22, dayOf 2002 4 23, dayOf 2002 4 24, dayOf 2002 4 25, dayOf 2002 4 26]

/-- `bridge_days`, `exchange_calendar_xbue.py` lines 328-346. -/
def bridgeDays : List Int :=
  [dayOf 2011 3 25, dayOf 2011 12 9, dayOf 2012 4 30, dayOf 2013 4 1, dayOf 2013 6 21,
   dayOf 2014 5 2, dayOf 2014 12 26, dayOf 2015 3 23, dayOf 2015 12 7, dayOf 2016 7 8,
   dayOf 2016 12 9, dayOf 2018 4 30, dayOf 2018 12 24, dayOf 2018 12 31, dayOf 2019 7 8,
   dayOf 2019 8 19, dayOf 2019 10 14]

/-- `irregular_observances`, `exchange_calendar_xbue.py` lines 348-353. -/
def irregularObservances : List Int :=
  [dayOf 2012 10 8, dayOf 2011 8 22, dayOf 2015 11 27, dayOf 2016 11 28]

/-- `adhoc_holidays`, `exchange_calendar_xbue.py` lines 301-361. -/
def adhoc : List Int :=
  miscAdhocs ++ marketClosures2002Jan ++ marketClosures2002Apr ++ bridgeDays ++
    irregularObservances

/-- `special_closes`, `exchange_calendar_xbue.py` lines 363-373. -/
def specialCloses : List (Int × List Rule) :=
  [(regularEarlyClose, [TC.Xbue.christmasEve, TC.Xbue.newYearsEve])]

/-- `XBUEExchangeCalendar`, `exchange_calendar_xbue.py` lines 225-373. -/
def exchange : Exchange :=
  { regular := TC.Xbue.regular
    adhoc := TC.Xbue.adhoc
    openTimes := TC.Xbue.openTimes
    closeTimes := TC.Xbue.closeTimes
    specialCloses := TC.Xbue.specialCloses }

end TC.Xbue
