import Verif.Model.Exchange
import Verif.Model.Zones

/-! `/repo/trading_calendars/exchange_calendar_xbog.py`, translated by `tools/gen_exchanges.py`. -/

namespace TC.Xbog

/-- `NewYearsDay`, `exchange_calendar_xbog.py` line 45. -/
def newYearsDay : Rule := TC.newYearsDay

/-- `Epiphany`, `exchange_calendar_xbog.py` line 47. -/
def epiphany : Rule := TC.epiphany (observance := some .nextMondayOffset)

/-- `StJosephsDay`, `exchange_calendar_xbog.py` lines 49-54. -/
def stJosephsDay : Rule := { month := 3, day := 19, offsets := [.weekday 0 1] }

/-- `MaundyThursday`, `exchange_calendar_xbog.py` line 56. -/
def maundyThursday : Rule := TC.maundyThursday

/-- `LabourDay`, `exchange_calendar_xbog.py` line 58. -/
def labourDay : Rule := TC.europeanLabourDay

/-- `MondayAfterAscensionDay`, `exchange_calendar_xbog.py` lines 60-65. -/
def mondayAfterAscensionDay : Rule := { month := 1, day := 1, offsets := [.easter, .days 43] }

/-- `MondayAfterCorpusChristi`, `exchange_calendar_xbog.py` lines 67-72. -/
def mondayAfterCorpusChristi : Rule := { month := 1, day := 1, offsets := [.easter, .days 64] }

/-- `MondayAfterSacredHeart`, `exchange_calendar_xbog.py` lines 74-79. -/
def mondayAfterSacredHeart : Rule := { month := 1, day := 1, offsets := [.easter, .days 71] }

/-- `StPeterAndStPaulDay`, `exchange_calendar_xbog.py` lines 81-86. -/
def stPeterAndStPaulDay : Rule := { month := 6, day := 29, offsets := [.weekday 0 1] }

/-- `ColombiaIndependenceDay`, `exchange_calendar_xbog.py` lines 88-92. -/
def colombiaIndependenceDay : Rule := { month := 7, day := 20 }

/-- `BattleOfBoyaca`, `exchange_calendar_xbog.py` lines 94-98. -/
def battleOfBoyaca : Rule := { month := 8, day := 7 }

/-- `AssumptionDay`, `exchange_calendar_xbog.py` lines 100-105. -/
def assumptionDay : Rule := { month := 8, day := 15, offsets := [.weekday 0 1] }

/-- `DiaDeLaRaza`, `exchange_calendar_xbog.py` lines 107-112. -/
def diaDeLaRaza : Rule := { month := 10, day := 12, offsets := [.weekday 0 1] }

/-- `AllSaintsDay`, `exchange_calendar_xbog.py` lines 114-119. -/
def allSaintsDay : Rule := { month := 11, day := 1, offsets := [.weekday 0 1] }

/-- `CartagenaIndependenceDay`, `exchange_calendar_xbog.py` lines 121-126. -/
def cartagenaIndependenceDay : Rule :=
  { month := 11, day := 11, observance := some .nextMondayOffset }

/-- `ImmaculateConception`, `exchange_calendar_xbog.py` line 128. -/
def immaculateConception : Rule := TC.immaculateConception

/-- `ChristmasDay`, `exchange_calendar_xbog.py` line 130. -/
def christmasDay : Rule := TC.christmas

/-- `LastTradingDay`, `exchange_calendar_xbog.py` line 132. -/
def lastTradingDay : Rule := TC.newYearsEve (observance := some .previousFriday)

/-- `tz`, `exchange_calendar_xbog.py` line 169. -/
def zone : Tz := Zones.americaNewYork

/-- `open_times`, `exchange_calendar_xbog.py` lines 171-173. -/
def openTimes : TimeTable := [(none, hm 9 31)]

/-- `close_times`, `exchange_calendar_xbog.py` lines 175-177. -/
def closeTimes : TimeTable := [(none, hm 16 0)]

/-- `regular_holidays`, `exchange_calendar_xbog.py` lines 179-201. -/
def regular : List Rule :=
  [TC.Xbog.newYearsDay, TC.Xbog.epiphany, TC.Xbog.stJosephsDay, TC.Xbog.maundyThursday,
   TC.goodFriday, TC.Xbog.labourDay, TC.Xbog.mondayAfterAscensionDay,
   TC.Xbog.mondayAfterCorpusChristi, TC.Xbog.mondayAfterSacredHeart, TC.Xbog.stPeterAndStPaulDay,
   TC.Xbog.colombiaIndependenceDay, TC.Xbog.battleOfBoyaca, TC.Xbog.assumptionDay,
   TC.Xbog.diaDeLaRaza, TC.Xbog.allSaintsDay, TC.Xbog.cartagenaIndependenceDay,
   TC.Xbog.immaculateConception, TC.Xbog.christmasDay, TC.Xbog.lastTradingDay]

/-- `XBOGExchangeCalendar`, `exchange_calendar_xbog.py` lines 135-201. -/
def exchange : Exchange :=
  { regular := TC.Xbog.regular
    openTimes := TC.Xbog.openTimes
    closeTimes := TC.Xbog.closeTimes }

end TC.Xbog
