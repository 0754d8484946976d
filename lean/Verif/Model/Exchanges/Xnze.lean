import Verif.Model.Exchange
import Verif.Model.Zones

/-! `/repo/trading_calendars/exchange_calendar_xnze.py`, translated by `tools/gen_exchanges.py`. -/

namespace TC.Xnze

/-- `NewYearsDay`, `exchange_calendar_xnze.py` line 56. -/
def newYearsDay : Rule := TC.newYearsDay (observance := some .nextMonday)

/-- `DayAfterNewYearsDay`, `exchange_calendar_xnze.py` lines 58-63. -/
def dayAfterNewYearsDay : Rule := { month := 1, day := 2, observance := some .nextMondayOrTuesday }

/-- `WaitangiDayNonMondayized`, `exchange_calendar_xnze.py` lines 65-70. -/
def waitangiDayNonMondayized : Rule := { month := 2, day := 6, endDate := some (dayOf 2015 1 1) }

/-- `WaitangiDay`, `exchange_calendar_xnze.py` lines 72-78. -/
def waitangiDay : Rule :=
  { month := 2, day := 6, observance := some .weekendToMonday,
    startDate := some (dayOf 2015 1 1) }

/-- `AnzacDayNonMondayized`, `exchange_calendar_xnze.py` line 80. -/
def anzacDayNonMondayized : Rule := TC.anzacDay (endDate := some (dayOf 2015 1 1))

/-- `AnzacDay`, `exchange_calendar_xnze.py` lines 82-85. -/
def anzacDay : Rule :=
  TC.anzacDay (observance := some .weekendToMonday) (startDate := some (dayOf 2015 1 1))

/-- `QueensBirthday`, `exchange_calendar_xnze.py` lines 87-92. -/
def queensBirthday : Rule := { month := 6, day := 1, offsets := [.weekday 0 1] }

/-- `LabourDay`, `exchange_calendar_xnze.py` lines 94-99. -/
def labourDay : Rule := { month := 10, day := 1, offsets := [.weekday 0 4] }

/-- `Christmas`, `exchange_calendar_xnze.py` line 101. -/
def christmas : Rule := TC.christmas (observance := some .nextMonday)

/-- `BoxingDay`, `exchange_calendar_xnze.py` line 103. -/
def boxingDay : Rule := TC.boxingDay (observance := some .nextMondayOrTuesday)

/-- `BusinessDayPriorToChristmasDay`, `exchange_calendar_xnze.py` lines 108-114. -/
def businessDayPriorToChristmasDay : Rule :=
  { month := 12, day := 25, observance := some .previousWorkday,
    startDate := some (dayOf 2011 1 1) }

/-- `BusinessDayPriorToNewYearsDay`, `exchange_calendar_xnze.py` lines 116-122. -/
def businessDayPriorToNewYearsDay : Rule :=
  { month := 1, day := 1, observance := some .previousWorkday,
    startDate := some (dayOf 2011 1 1) }

/-- `XMAS22DEC86`, `exchange_calendar_xnze.py` line 125. -/
def xmas22DEC86 : Int := dayOf 1986 12 22

/-- `XMAS23DEC86`, `exchange_calendar_xnze.py` line 126. -/
def xmas23DEC86 : Int := dayOf 1986 12 23

/-- `XMAS24DEC86`, `exchange_calendar_xnze.py` line 127. -/
def xmas24DEC86 : Int := dayOf 1986 12 24

/-- `XMAS29DEC86`, `exchange_calendar_xnze.py` line 128. -/
def xmas29DEC86 : Int := dayOf 1986 12 29

/-- `XMAS30DEC86`, `exchange_calendar_xnze.py` line 129. -/
def xmas30DEC86 : Int := dayOf 1986 12 30

/-- `XMAS31DEC86`, `exchange_calendar_xnze.py` line 130. -/
def xmas31DEC86 : Int := dayOf 1986 12 31

/-- `XMAS24DEC90`, `exchange_calendar_xnze.py` line 131. -/
def xmas24DEC90 : Int := dayOf 1990 12 24

/-- `XMAS31DEC90`, `exchange_calendar_xnze.py` line 132. -/
def xmas31DEC90 : Int := dayOf 1990 12 31

/-- `XMAS27DEC91`, `exchange_calendar_xnze.py` line 133. -/
def xmas27DEC91 : Int := dayOf 1991 12 27

/-- `NYDX03JAN92`, `exchange_calendar_xnze.py` line 134. -/
def nydx03JAN92 : Int := dayOf 1992 1 3

/-- `XMAS31DEC99`, `exchange_calendar_xnze.py` line 135. -/
def xmas31DEC99 : Int := dayOf 1999 12 31

/-- `regular_early_close`, `exchange_calendar_xnze.py` line 161. -/
def regularEarlyClose : Int := hm 12 45

/-- `tz`, `exchange_calendar_xnze.py` line 165. -/
def zone : Tz := Zones.nz

/-- `open_times`, `exchange_calendar_xnze.py` lines 167-169. -/
def openTimes : TimeTable := [(none, hm 10 1)]

/-- `close_times`, `exchange_calendar_xnze.py` lines 171-173. -/
def closeTimes : TimeTable := [(none, hm 16 45)]

/-- `regular_holidays`, `exchange_calendar_xnze.py` lines 175-190. -/
def regular : List Rule :=
  [TC.Xnze.newYearsDay, TC.Xnze.dayAfterNewYearsDay, TC.Xnze.waitangiDayNonMondayized,
   TC.Xnze.waitangiDay, TC.goodFriday, TC.easterMonday, TC.Xnze.anzacDayNonMondayized,
   TC.Xnze.anzacDay, TC.Xnze.queensBirthday, TC.Xnze.labourDay, TC.Xnze.christmas,
   TC.Xnze.boxingDay]

/-- `adhoc_holidays`, `exchange_calendar_xnze.py` lines 193-197. -/
def adhoc : List Int :=
  [TC.Xnze.xmas22DEC86, TC.Xnze.xmas23DEC86, TC.Xnze.xmas24DEC86, TC.Xnze.xmas29DEC86,
   TC.Xnze.xmas30DEC86, TC.Xnze.xmas31DEC86, TC.Xnze.xmas24DEC90, TC.Xnze.xmas31DEC90,
   TC.Xnze.xmas27DEC91, TC.Xnze.nydx03JAN92, TC.Xnze.xmas31DEC99]

/-- `special_closes`, `exchange_calendar_xnze.py` lines 199-209. -/
def specialCloses : List (Int × List Rule) :=
  [(regularEarlyClose, [TC.Xnze.businessDayPriorToChristmasDay,
    TC.Xnze.businessDayPriorToNewYearsDay])]

/-- `XNZEExchangeCalendar`, `exchange_calendar_xnze.py` lines 138-209. -/
def exchange : Exchange :=
  { regular := TC.Xnze.regular
    adhoc := TC.Xnze.adhoc
    openTimes := TC.Xnze.openTimes
    closeTimes := TC.Xnze.closeTimes
    specialCloses := TC.Xnze.specialCloses }

end TC.Xnze
