import Verif.Model.Exchange

/-! `/repo/trading_calendars/us_holidays.py`, translated by `tools/gen_exchanges.py`. -/

namespace TC.UsHolidays

/-- `ChristmasEveBefore1993`, `us_holidays.py` lines 49-56. -/
def christmasEveBefore1993 : Rule :=
  { month := 12, day := 24, endDate := some (dayOf 1993 1 1), daysOfWeek := some [0, 1, 2, 3] }

/-- `ChristmasEveInOrAfter1993`, `us_holidays.py` lines 57-64. -/
def christmasEveInOrAfter1993 : Rule :=
  { month := 12, day := 24, startDate := some (dayOf 1993 1 1), daysOfWeek := some [0, 1, 2, 3] }

/-- `USNewYearsDay`, `us_holidays.py` lines 65-69. -/
def usNewYearsDay : Rule := TC.newYearsDay (observance := some .sundayToMonday)

/-- `USMartinLutherKingJrAfter1998`, `us_holidays.py` lines 70-77. -/
def usMartinLutherKingJrAfter1998 : Rule :=
  { month := 1, day := 1, offsets := [.weekday 0 3], startDate := some (dayOf 1998 1 1) }

/-- `USLincolnsBirthDayBefore1954`, `us_holidays.py` lines 78-85. -/
def usLincolnsBirthDayBefore1954 : Rule :=
  { month := 2, day := 12, observance := some .sundayToMonday, startDate := some (dayOf 1874 1 1),
    endDate := some (dayOf 1953 12 31) }

/-- `USWashingtonsBirthDayBefore1964`, `us_holidays.py` lines 86-93. -/
def usWashingtonsBirthDayBefore1964 : Rule :=
  { month := 2, day := 22, observance := some .sundayToMonday, startDate := some (dayOf 1880 1 1),
    endDate := some (dayOf 1963 12 31) }

/-- `USWashingtonsBirthDay1964to1970`, `us_holidays.py` lines 94-101. -/
def usWashingtonsBirthDay1964to1970 : Rule :=
  { month := 2, day := 22, observance := some .nearestWorkday, startDate := some (dayOf 1964 1 1),
    endDate := some (dayOf 1970 12 31) }

/-- `USPresidentsDay`, `us_holidays.py` lines 102-108. -/
def usPresidentsDay : Rule :=
  { month := 2, day := 1, offsets := [.weekday 0 3], startDate := some (dayOf 1971 1 1) }

/-- `USThanksgivingDayBefore1939`, `us_holidays.py` lines 110-117. -/
def usThanksgivingDayBefore1939 : Rule :=
  { month := 11, day := 30, offsets := [.weekday 3 (-1)], startDate := some (dayOf 1864 1 1),
    endDate := some (dayOf 1938 12 31) }

/-- `USThanksgivingDay1939to1941`, `us_holidays.py` lines 119-126. -/
def usThanksgivingDay1939to1941 : Rule :=
  { month := 11, day := 30, offsets := [.weekday 3 (-2)], startDate := some (dayOf 1939 1 1),
    endDate := some (dayOf 1941 12 31) }

/-- `USThanksgivingDay`, `us_holidays.py` lines 127-133. -/
def usThanksgivingDay : Rule :=
  { month := 11, day := 1, offsets := [.weekday 3 4], startDate := some (dayOf 1942 1 1) }

/-- `USMemorialDayBefore1964`, `us_holidays.py` lines 135-141. -/
def usMemorialDayBefore1964 : Rule :=
  { month := 5, day := 30, observance := some .sundayToMonday,
    endDate := some (dayOf 1963 12 31) }

/-- `USMemorialDay1964to1969`, `us_holidays.py` lines 142-149. -/
def usMemorialDay1964to1969 : Rule :=
  { month := 5, day := 30, observance := some .nearestWorkday, startDate := some (dayOf 1964 1 1),
    endDate := some (dayOf 1969 12 31) }

/-- `USMemorialDay`, `us_holidays.py` lines 150-158. -/
def usMemorialDay : Rule :=
  { month := 5, day := 25, offsets := [.weekday 0 1], startDate := some (dayOf 1971 1 1) }

/-- `USIndependenceDayBefore1954`, `us_holidays.py` lines 160-166. -/
def usIndependenceDayBefore1954 : Rule :=
  { month := 7, day := 4, observance := some .sundayToMonday, endDate := some (dayOf 1953 12 31) }

/-- `USIndependenceDay`, `us_holidays.py` lines 167-173. -/
def usIndependenceDay : Rule :=
  { month := 7, day := 4, observance := some .nearestWorkday, startDate := some (dayOf 1954 1 1) }

/-- `USElectionDay1848to1967`, `us_holidays.py` lines 175-182. -/
def usElectionDay1848to1967 : Rule :=
  { month := 11, day := 2, offsets := [.weekday 1 1], startDate := some (dayOf 1848 1 1),
    endDate := some (dayOf 1967 12 31) }

/-- `USElectionDay1968to1980`, `us_holidays.py` lines 183-190. -/
def usElectionDay1968to1980 : Rule :=
  { month := 11, day := 2, observance := some .followingTuesdayEveryFourYears,
    startDate := some (dayOf 1968 1 1), endDate := some (dayOf 1980 12 31) }

/-- `USVeteransDay1934to1953`, `us_holidays.py` lines 191-198. -/
def usVeteransDay1934to1953 : Rule :=
  { month := 11, day := 11, observance := some .sundayToMonday,
    startDate := some (dayOf 1934 1 1), endDate := some (dayOf 1953 12 31) }

/-- `USColumbusDayBefore1954`, `us_holidays.py` lines 199-205. -/
def usColumbusDayBefore1954 : Rule :=
  { month := 10, day := 12, observance := some .sundayToMonday,
    endDate := some (dayOf 1953 12 31) }

/-- `ChristmasBefore1954`, `us_holidays.py` lines 206-212. -/
def christmasBefore1954 : Rule :=
  { month := 12, day := 25, observance := some .sundayToMonday,
    endDate := some (dayOf 1953 12 31) }

/-- `Christmas`, `us_holidays.py` lines 213-219. -/
def christmas : Rule :=
  { month := 12, day := 25, observance := some .nearestWorkday,
    startDate := some (dayOf 1954 1 1) }

/-- `MonTuesThursBeforeIndependenceDay`, `us_holidays.py` lines 223-231. -/
def monTuesThursBeforeIndependenceDay : Rule :=
  { month := 7, day := 3, startDate := some (dayOf 1995 1 1), daysOfWeek := some [0, 1, 3] }

/-- `FridayAfterIndependenceDayPre2013`, `us_holidays.py` lines 232-241. -/
def fridayAfterIndependenceDayPre2013 : Rule :=
  { month := 7, day := 5, startDate := some (dayOf 1995 1 1), endDate := some (dayOf 2013 1 1),
    daysOfWeek := some [4] }

/-- `WednesdayBeforeIndependenceDayPost2013`, `us_holidays.py` lines 242-250. -/
def wednesdayBeforeIndependenceDayPost2013 : Rule :=
  { month := 7, day := 3, startDate := some (dayOf 2013 1 1), daysOfWeek := some [2] }

/-- `USBlackFridayBefore1993`, `us_holidays.py` lines 251-259. -/
def usBlackFridayBefore1993 : Rule :=
  { month := 11, day := 1, offsets := [.weekday 3 4, .days 1], startDate := some (dayOf 1992 1 1),
    endDate := some (dayOf 1993 1 1) }

/-- `USBlackFridayInOrAfter1993`, `us_holidays.py` lines 260-266. -/
def usBlackFridayInOrAfter1993 : Rule :=
  { month := 11, day := 1, offsets := [.weekday 3 4, .days 1],
    startDate := some (dayOf 1993 1 1) }

/-- `November29BacklogRelief`, `us_holidays.py` lines 280-283. -/
def november29BacklogRelief : List Int := [dayOf 1929 11 1, dayOf 1929 11 29]

/-- `March33BankHoliday`, `us_holidays.py` lines 285-293. -/
def march33BankHoliday : List Int :=
  [dayOf 1933 3 6, dayOf 1933 3 7, dayOf 1933 3 8, dayOf 1933 3 9, dayOf 1933 3 10, dayOf 1933 3 13,
   dayOf 1933 3 14]

/-- `August45VictoryOverJapan`, `us_holidays.py` lines 295-298. -/
def august45VictoryOverJapan : List Int := [dayOf 1945 8 15, dayOf 1945 8 16]

/-- `ChristmasEvesAdhoc`, `us_holidays.py` lines 301-304. -/
def christmasEvesAdhoc : List Int := [dayOf 1945 12 24, dayOf 1956 12 24]

/-- `DayAfterChristmasAdhoc`, `us_holidays.py` line 306. -/
def dayAfterChristmasAdhoc : List Int := [dayOf 1958 12 26]

/-- `DayBeforeDecorationAdhoc`, `us_holidays.py` line 308. -/
def dayBeforeDecorationAdhoc : List Int := [dayOf 1961 5 29]

/-- `LincolnsBirthDayAdhoc`, `us_holidays.py` line 310. -/
def lincolnsBirthDayAdhoc : List Int := [dayOf 1968 2 12]

/-- `PaperworkCrisis68`, `us_holidays.py` lines 312-338. -/
def paperworkCrisis68 : List Int :=
  [dayOf 1968 6 12, dayOf 1968 6 19, dayOf 1968 6 26, dayOf 1968 7 10, dayOf 1968 7 17,
   dayOf 1968 7 24, dayOf 1968 7 31, dayOf 1968 8 7, dayOf 1968 8 14, dayOf 1968 8 21,
   dayOf 1968 8 28, dayOf 1968 9 11, dayOf 1968 9 18, dayOf 1968 9 25, dayOf 1968 10 2,
   dayOf 1968 10 9, dayOf 1968 10 16, dayOf 1968 10 23, dayOf 1968 10 30, dayOf 1968 11 11,
   dayOf 1968 11 20, dayOf 1968 12 4, dayOf 1968 12 11, dayOf 1968 12 18, dayOf 1968 12 25]

/-- `DayAfterIndependenceDayAdhoc`, `us_holidays.py` line 340. -/
def dayAfterIndependenceDayAdhoc : List Int := [dayOf 1968 7 5]

/-- `WeatherSnowClosing`, `us_holidays.py` line 342. -/
def weatherSnowClosing : List Int := [dayOf 1969 2 10]

/-- `FirstLunarLandingClosing`, `us_holidays.py` line 344. -/
def firstLunarLandingClosing : List Int := [dayOf 1969 7 21]

/-- `NewYorkCityBlackout77`, `us_holidays.py` line 346. -/
def newYorkCityBlackout77 : List Int := [dayOf 1977 7 14]

/-- `September11Closings`, `us_holidays.py` lines 350-355. -/
def september11Closings : List Int :=
  [dayOf 2001 9 11, dayOf 2001 9 12, dayOf 2001 9 13, dayOf 2001 9 14]

/-- `HurricaneSandyClosings`, `us_holidays.py` lines 358-361. -/
def hurricaneSandyClosings : List Int := [dayOf 2012 10 29, dayOf 2012 10 30]

/-- `HurricaneGloriaClosing`, `us_holidays.py` line 364. -/
def hurricaneGloriaClosing : List Int := [dayOf 1985 9 27]

/-- `USNationalDaysofMourning`, `us_holidays.py` lines 379-389. -/
def usNationalDaysofMourning : List Int :=
  [dayOf 1963 11 25, dayOf 1968 4 9, dayOf 1969 3 31, dayOf 1972 12 28, dayOf 1973 1 25,
   dayOf 1994 4 27, dayOf 2004 6 11, dayOf 2007 1 2, dayOf 2018 12 5]

end TC.UsHolidays
