import Verif.Model.Exchange
import Verif.Model.Zones

/-! `/repo/trading_calendars/exchange_calendar_asex.py`, translated by `tools/gen_exchanges.py`. -/

namespace TC.Asex

/-- `orthodox_easter()` with its default arguments, `exchange_calendar_asex.py` lines 41-50: Orthodox
Easter of the years `range(1980, 2021)`. -/
def orthodoxEaster : List Int :=
  (List.range (2021 - 1980)).map fun (i : Nat) => TC.orthodoxEaster (1980 + (i : Int))

/-- `NewYearsDay`, `exchange_calendar_asex.py` line 53. -/
def newYearsDay : Rule := TC.newYearsDay

/-- `Epiphany`, `exchange_calendar_asex.py` line 55. -/
def epiphany : Rule := TC.epiphany

/-- `OrthodoxAshMonday`, `exchange_calendar_asex.py` line 57. -/
def orthodoxAshMonday : List Int := TC.Asex.orthodoxEaster.map (· - 48)

/-- `NationalHoliday1`, `exchange_calendar_asex.py` lines 59-63. -/
def nationalHoliday1 : Rule := { month := 3, day := 25 }

/-- `OrthodoxGoodFriday`, `exchange_calendar_asex.py` line 65. -/
def orthodoxGoodFriday : List Int := TC.Asex.orthodoxEaster.map (· - 2)

/-- `OrthodoxEasterMonday`, `exchange_calendar_asex.py` line 67. -/
def orthodoxEasterMonday : List Int := TC.Asex.orthodoxEaster.map (· + 1)

/-- `LabourDay`, `exchange_calendar_asex.py` line 69. -/
def labourDay : Rule := TC.europeanLabourDay

/-- `OrthodoxWhitMonday`, `exchange_calendar_asex.py` line 71. -/
def orthodoxWhitMonday : List Int := TC.Asex.orthodoxEaster.map (· + 50)

/-- `AssumptionDay`, `exchange_calendar_asex.py` line 73. -/
def assumptionDay : Rule := TC.assumptionDay

/-- `NationalHoliday2`, `exchange_calendar_asex.py` lines 75-79. -/
def nationalHoliday2 : Rule := { month := 10, day := 28 }

/-- `ChristmasEve`, `exchange_calendar_asex.py` line 81. -/
def christmasEve : Rule := TC.christmasEve (startDate := some (dayOf 2009 1 1))

/-- `ChristmasDay`, `exchange_calendar_asex.py` line 83. -/
def christmasDay : Rule := TC.christmas

/-- `SecondDayOfChristmas`, `exchange_calendar_asex.py` lines 85-89. -/
def secondDayOfChristmas : Rule := { month := 12, day := 26 }

/-- `tz`, `exchange_calendar_asex.py` line 122. -/
def zone : Tz := Zones.europeAthens

/-- `open_times`, `exchange_calendar_asex.py` lines 124-126. -/
def openTimes : TimeTable := [(none, hm 10 1)]

/-- `close_times`, `exchange_calendar_asex.py` lines 128-131. -/
def closeTimes : TimeTable := [(none, hm 17 0), (some ((dayOf 2008 9 29) * DAY), hm 17 20)]

/-- `regular_holidays`, `exchange_calendar_asex.py` lines 133-147. -/
def regular : List Rule :=
  [TC.Asex.newYearsDay, TC.Asex.epiphany, TC.Asex.nationalHoliday1, TC.goodFriday, TC.easterMonday,
   TC.Asex.labourDay, TC.Asex.assumptionDay, TC.Asex.nationalHoliday2, TC.Asex.christmasEve,
   TC.Asex.christmasDay, TC.Asex.secondDayOfChristmas]

/-- `debt_crisis`, `exchange_calendar_asex.py` line 151. -/
def debtCrisis : List Int :=
  (dayRange (dayOf 2015 6 29) (dayOf 2015 7 31)).filter fun d => [0, 1, 2, 3,
    4].contains (weekday d)

/-- `debt_crisis_holidays`, `exchange_calendar_asex.py` lines 153-155. -/
def debtCrisisHolidays : List Int := debtCrisis

/-- `misc_adhoc_holidays`, `exchange_calendar_asex.py` lines 157-171. -/
def miscAdhocHolidays : List Int :=
  [dayOf 2002 5 7, dayOf 2004 8 13, dayOf 2008 3 4, dayOf 2008 3 5, dayOf 2013 5 7,
   dayOf 2014 12 31, dayOf 2016 5 3]

/-- `adhoc_holidays`, `exchange_calendar_asex.py` lines 149-181. -/
def adhoc : List Int :=
  debtCrisisHolidays ++ miscAdhocHolidays ++ TC.Asex.orthodoxGoodFriday ++
    TC.Asex.orthodoxEasterMonday ++ TC.Asex.orthodoxWhitMonday ++ TC.Asex.orthodoxAshMonday

/-- `ASEXExchangeCalendar`, `exchange_calendar_asex.py` lines 92-181. -/
def exchange : Exchange :=
  { regular := TC.Asex.regular
    adhoc := TC.Asex.adhoc
    openTimes := TC.Asex.openTimes
    closeTimes := TC.Asex.closeTimes }

end TC.Asex
