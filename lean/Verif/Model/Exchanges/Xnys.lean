import Verif.Model.Exchange
import Verif.Model.Exchanges.UsHolidays
import Verif.Model.Zones

/-! `/repo/trading_calendars/exchange_calendar_xnys.py`, translated by `tools/gen_exchanges.py`. -/

namespace TC.Xnys

/-- `regular_early_close`, `exchange_calendar_xnys.py` line 158. -/
def regularEarlyClose : Int := hm 13 0

/-- `tz`, `exchange_calendar_xnys.py` line 162. -/
def zone : Tz := Zones.americaNewYork

/-- `open_times`, `exchange_calendar_xnys.py` line 164. -/
def openTimes : TimeTable := [(none, hm 9 31)]

/-- `close_times`, `exchange_calendar_xnys.py` line 166. -/
def closeTimes : TimeTable := [(none, hm 16 0)]

/-- `regular_holidays`, `exchange_calendar_xnys.py` lines 168-195. -/
def regular : List Rule :=
  [TC.UsHolidays.usNewYearsDay, TC.UsHolidays.usMartinLutherKingJrAfter1998,
   TC.UsHolidays.usLincolnsBirthDayBefore1954, TC.UsHolidays.usWashingtonsBirthDayBefore1964,
   TC.UsHolidays.usWashingtonsBirthDay1964to1970, TC.UsHolidays.usPresidentsDay, TC.goodFriday,
   TC.UsHolidays.usMemorialDayBefore1964, TC.UsHolidays.usMemorialDay1964to1969,
   TC.UsHolidays.usMemorialDay, TC.UsHolidays.usIndependenceDayBefore1954,
   TC.UsHolidays.usIndependenceDay, TC.usLaborDay, TC.UsHolidays.usThanksgivingDayBefore1939,
   TC.UsHolidays.usThanksgivingDay1939to1941, TC.UsHolidays.usThanksgivingDay,
   TC.UsHolidays.usElectionDay1848to1967, TC.UsHolidays.usElectionDay1968to1980,
   TC.UsHolidays.usVeteransDay1934to1953, TC.UsHolidays.usColumbusDayBefore1954,
   TC.UsHolidays.christmasBefore1954, TC.UsHolidays.christmas]

/-- `adhoc_holidays`, `exchange_calendar_xnys.py` lines 197-218. -/
def adhoc : List Int :=
  TC.UsHolidays.november29BacklogRelief ++ TC.UsHolidays.march33BankHoliday ++
    TC.UsHolidays.august45VictoryOverJapan ++ TC.UsHolidays.christmasEvesAdhoc ++
    TC.UsHolidays.dayAfterChristmasAdhoc ++ TC.UsHolidays.dayBeforeDecorationAdhoc ++
    TC.UsHolidays.lincolnsBirthDayAdhoc ++ TC.UsHolidays.paperworkCrisis68 ++
    TC.UsHolidays.dayAfterIndependenceDayAdhoc ++ TC.UsHolidays.weatherSnowClosing ++
    TC.UsHolidays.firstLunarLandingClosing ++ TC.UsHolidays.september11Closings ++
    TC.UsHolidays.newYorkCityBlackout77 ++ TC.UsHolidays.hurricaneGloriaClosing ++
    TC.UsHolidays.hurricaneSandyClosings ++ TC.UsHolidays.usNationalDaysofMourning

/-- `special_closes`, `exchange_calendar_xnys.py` lines 220-241. -/
def specialCloses : List (Int × List Rule) := [(regularEarlyClose,
     [TC.UsHolidays.monTuesThursBeforeIndependenceDay,
      TC.UsHolidays.fridayAfterIndependenceDayPre2013,
      TC.UsHolidays.wednesdayBeforeIndependenceDayPost2013,
      TC.UsHolidays.usBlackFridayInOrAfter1993, TC.UsHolidays.christmasEveInOrAfter1993]),
   (hm 14 0, [TC.UsHolidays.christmasEveBefore1993, TC.UsHolidays.usBlackFridayBefore1993])]

/-- `special_closes_adhoc`, `exchange_calendar_xnys.py` lines 243-252. -/
def specialClosesAdhoc : List (Int × List Int) :=
  [(regularEarlyClose, [dayOf 1997 12 26, dayOf 1999 12 31, dayOf 2003 12 26])]

/-- `XNYSExchangeCalendar`, `exchange_calendar_xnys.py` lines 79-252. -/
def exchange : Exchange :=
  { regular := TC.Xnys.regular
    adhoc := TC.Xnys.adhoc
    openTimes := TC.Xnys.openTimes
    closeTimes := TC.Xnys.closeTimes
    specialCloses := TC.Xnys.specialCloses
    specialClosesAdhoc := TC.Xnys.specialClosesAdhoc }

end TC.Xnys
