import Verif.Model.Exchange
import Verif.Model.Zones

/-! `/repo/trading_calendars/exchange_calendar_xsgo.py`, translated by `tools/gen_exchanges.py`. -/

namespace TC.Xsgo

/-- `NewYearsDay`, `exchange_calendar_xsgo.py` line 86. -/
def newYearsDay : Rule := TC.newYearsDay

/-- `MaundyThursday`, `exchange_calendar_xsgo.py` line 88. -/
def maundyThursday : Rule := TC.maundyThursday

/-- `MondayPriorToCorpusChristi`, `exchange_calendar_xsgo.py` lines 89-95. -/
def mondayPriorToCorpusChristi : Rule :=
  { month := 1, day := 1, offsets := [.easter, .days 57], endDate := some (dayOf 2008 1 1) }

/-- `LabourDay`, `exchange_calendar_xsgo.py` line 97. -/
def labourDay : Rule := TC.europeanLabourDay

/-- `NavyDay`, `exchange_calendar_xsgo.py` line 99. -/
def navyDay : Rule := { month := 5, day := 21 }

/-- `SaintPeterAndSaintPaulDay`, `exchange_calendar_xsgo.py` lines 101-103. -/
def saintPeterAndSaintPaulDay : Rule :=
  TC.saintPeterAndSaintPaulDay (observance := some .nearestMondayXsgo)

/-- `OurLadyOfMountCarmelDay`, `exchange_calendar_xsgo.py` lines 105-110. -/
def ourLadyOfMountCarmelDay : Rule := { month := 7, day := 16, startDate := some (dayOf 2008 1 1) }

/-- `AssumptionDay`, `exchange_calendar_xsgo.py` line 112. -/
def assumptionDay : Rule := TC.assumptionDay

/-- `PublicHolidayMonday`, `exchange_calendar_xsgo.py` lines 114-120. -/
def publicHolidayMonday : Rule :=
  { month := 9, day := 17, startDate := some (dayOf 2003 1 1), daysOfWeek := some [0] }

/-- `DayBeforeIndependenceDay`, `exchange_calendar_xsgo.py` lines 121-127. -/
def dayBeforeIndependenceDay : Rule :=
  { month := 9, day := 17, observance := some (.notYear 2010), daysOfWeek := some [1, 2, 3, 4] }

/-- `IndependenceDay`, `exchange_calendar_xsgo.py` line 128. -/
def independenceDay : Rule := { month := 9, day := 18 }

/-- `ArmyDay`, `exchange_calendar_xsgo.py` line 129. -/
def armyDay : Rule := { month := 9, day := 19 }

/-- `PublicHolidayFriday`, `exchange_calendar_xsgo.py` lines 130-136. -/
def publicHolidayFriday : Rule :=
  { month := 9, day := 20, startDate := some (dayOf 2003 1 1), daysOfWeek := some [4] }

/-- `DiaDeLaRaza`, `exchange_calendar_xsgo.py` lines 138-143. -/
def diaDeLaRaza : Rule := { month := 10, day := 12, observance := some .nearestMondayXsgo }

/-- `EvangelicalChurchDay`, `exchange_calendar_xsgo.py` lines 145-151. -/
def evangelicalChurchDay : Rule :=
  { month := 10, day := 31, observance := some .tuesdayAndWednesdayToFriday,
    startDate := some (dayOf 2008 1 1) }

/-- `AllSaintsDay`, `exchange_calendar_xsgo.py` line 152. -/
def allSaintsDay : Rule := TC.allSaintsDay

/-- `ImmaculateConception`, `exchange_calendar_xsgo.py` line 154. -/
def immaculateConception : Rule := TC.immaculateConception

/-- `ChristmasEve`, `exchange_calendar_xsgo.py` line 156. -/
def christmasEve : Rule := TC.christmasEve (daysOfWeek := some [0, 1, 2, 3, 4])

/-- `Christmas`, `exchange_calendar_xsgo.py` line 157. -/
def christmas : Rule := TC.christmas

/-- `DayBeforeBankHoliday`, `exchange_calendar_xsgo.py` lines 159-164. -/
def dayBeforeBankHoliday : Rule := { month := 12, day := 30, daysOfWeek := some [0, 1, 2, 3, 4] }

/-- `BankHoliday`, `exchange_calendar_xsgo.py` line 165. -/
def bankHoliday : Rule := TC.newYearsEve

/-- `tz`, `exchange_calendar_xsgo.py` line 205. -/
def zone : Tz := Zones.americaSantiago

/-- `open_times`, `exchange_calendar_xsgo.py` lines 207-209. -/
def openTimes : TimeTable := [(none, hm 9 31)]

/-- `early_close_1230`, `exchange_calendar_xsgo.py` line 210. -/
def earlyClose1230 : Int := hm 12 30

/-- `early_close_130`, `exchange_calendar_xsgo.py` line 211. -/
def earlyClose130 : Int := hm 13 30

/-- `close_times`, `exchange_calendar_xsgo.py` lines 213-218 and 271-275: 17:00, and for the years
`range(1980, 2050)` 16:00 from March 1 and 17:00 from November 1. -/
def closeTimes : TimeTable :=
  (none, hm 17 0) :: (List.range (2050 - 1980)).flatMap fun (i : Nat) =>
    [(some (dayOf (1980 + (i : Int)) 3 1 * DAY), hm 16 0),
     (some (dayOf (1980 + (i : Int)) 11 1 * DAY), hm 17 0)]

/-- `regular_holidays`, `exchange_calendar_xsgo.py` lines 220-241. -/
def regular : List Rule :=
  [TC.Xsgo.newYearsDay, TC.goodFriday, TC.Xsgo.mondayPriorToCorpusChristi, TC.Xsgo.labourDay,
   TC.Xsgo.navyDay, TC.Xsgo.saintPeterAndSaintPaulDay, TC.Xsgo.ourLadyOfMountCarmelDay,
   TC.Xsgo.assumptionDay, TC.Xsgo.publicHolidayMonday, TC.Xsgo.independenceDay, TC.Xsgo.armyDay,
   TC.Xsgo.publicHolidayFriday, TC.Xsgo.diaDeLaRaza, TC.Xsgo.evangelicalChurchDay,
   TC.Xsgo.allSaintsDay, TC.Xsgo.immaculateConception, TC.Xsgo.christmas, TC.Xsgo.bankHoliday]

/-- `adhoc_holidays`, `exchange_calendar_xsgo.py` lines 243-256. -/
def adhoc : List Int :=
  [dayOf 2010 9 17, dayOf 2010 9 20, dayOf 2017 1 2, dayOf 2017 4 19, dayOf 2018 1 16]

/-- `special_closes`, `exchange_calendar_xsgo.py` lines 258-269. -/
def specialCloses : List (Int × List Rule) := [(earlyClose1230, [TC.Xsgo.christmasEve, TC.Xsgo.dayBeforeBankHoliday]),
   (earlyClose130, [TC.Xsgo.maundyThursday, TC.Xsgo.dayBeforeIndependenceDay])]

/-- `XSGOExchangeCalendar`, `exchange_calendar_xsgo.py` lines 168-275. -/
def exchange : Exchange :=
  { regular := TC.Xsgo.regular
    adhoc := TC.Xsgo.adhoc
    openTimes := TC.Xsgo.openTimes
    closeTimes := TC.Xsgo.closeTimes
    specialCloses := TC.Xsgo.specialCloses }

end TC.Xsgo
