import Verif.Model.Exchange

/-! `/repo/trading_calendars/xbkk_holidays.py`, translated by `tools/gen_exchanges.py`. -/

namespace TC.XbkkHolidays

/-- `NewYearsDay`, `xbkk_holidays.py` line 40. -/
def newYearsDay : Rule := TC.newYearsDay (observance := some (.nextMondayOrTuesdayExcept 2006))

/-- `ChakriMemorialDay`, `xbkk_holidays.py` lines 42-47. -/
def chakriMemorialDay : Rule := { month := 4, day := 6, observance := some .weekendToMonday }

/-- `SongkranFestival1`, `xbkk_holidays.py` line 50. -/
def songkranFestival1 : Rule := { month := 4, day := 13 }

/-- `SongkranFestival2`, `xbkk_holidays.py` lines 51-56. -/
def songkranFestival2 : Rule := { month := 4, day := 14, observance := some .sundayToMonday }

/-- `SongkranFestival3`, `xbkk_holidays.py` lines 57-62. -/
def songkranFestival3 : Rule := { month := 4, day := 15, observance := some .songkranLastDay }

/-- `LabourDay`, `xbkk_holidays.py` line 64. -/
def labourDay : Rule := TC.europeanLabourDay (observance := some .weekendToMonday)

/-- `CoronationDay2016AndBefore`, `xbkk_holidays.py` lines 66-72. -/
def coronationDay2016AndBefore : Rule :=
  { month := 5, day := 5, observance := some .weekendToMonday, endDate := some (dayOf 2017 1 1) }

/-- `CoronationDay2019AndAfter`, `xbkk_holidays.py` lines 73-79. -/
def coronationDay2019AndAfter : Rule :=
  { month := 5, day := 4, observance := some .weekendToMonday,
    startDate := some (dayOf 2019 1 1) }

/-- `HMQueensBirthday`, `xbkk_holidays.py` lines 81-87. -/
def hmQueensBirthday : Rule :=
  { month := 6, day := 3, observance := some .weekendToMonday,
    startDate := some (dayOf 2019 1 1) }

/-- `HMKingsBirthday`, `xbkk_holidays.py` lines 88-94. -/
def hmKingsBirthday : Rule :=
  { month := 7, day := 28, observance := some .weekendToMonday,
    startDate := some (dayOf 2017 1 1) }

/-- `HMQueenMothersBirthday`, `xbkk_holidays.py` lines 95-100. -/
def hmQueenMothersBirthday : Rule := { month := 8, day := 12, observance := some .weekendToMonday }

/-- `HalfYearHoliday`, `xbkk_holidays.py` lines 104-110. -/
def halfYearHoliday : Rule :=
  { month := 7, day := 1, startDate := some (dayOf 2002 1 1), endDate := some (dayOf 2017 1 1) }

/-- `ThePassingOfKingBhumibol`, `xbkk_holidays.py` lines 112-118. -/
def thePassingOfKingBhumibol : Rule :=
  { month := 10, day := 13, observance := some .weekendToMonday,
    startDate := some (dayOf 2017 1 1) }

/-- `ChulalongkornDay`, `xbkk_holidays.py` lines 120-125. -/
def chulalongkornDay : Rule := { month := 10, day := 23, observance := some .weekendToMonday }

/-- `KingBhumibolsBirthday`, `xbkk_holidays.py` lines 127-132. -/
def kingBhumibolsBirthday : Rule := { month := 12, day := 5, observance := some .weekendToMonday }

/-- `ThailandConstitutionDay`, `xbkk_holidays.py` lines 134-139. -/
def thailandConstitutionDay : Rule :=
  { month := 12, day := 10, observance := some .weekendToMonday }

/-- `NewYearsEve`, `xbkk_holidays.py` line 141. -/
def newYearsEve : Rule := TC.newYearsEve (observance := some (.weekendToMondayExcept [2003]))

/-- `new_years_bridge_days`, `xbkk_holidays.py` lines 146-152. -/
def newYearsBridgeDays : List Int :=
  [dayOf 2002 12 30, dayOf 2004 1 2, dayOf 2009 1 2, dayOf 2013 12 30, dayOf 2015 1 2]

/-- `asanha_bucha_bridge_days`, `xbkk_holidays.py` lines 154-157. -/
def asanhaBuchaBridgeDays : List Int := [dayOf 2009 7 6, dayOf 2016 7 18]

/-- `queens_birthday_bridge_days`, `xbkk_holidays.py` lines 159-162. -/
def queensBirthdayBridgeDays : List Int := [dayOf 2010 8 13, dayOf 2014 8 11]

/-- `coronation_bridge_days`, `xbkk_holidays.py` lines 164-167. -/
def coronationBridgeDays : List Int := [dayOf 2015 5 4, dayOf 2016 5 6]

/-- `vesak_bridge_days`, `xbkk_holidays.py` lines 169-171. -/
def vesakBridgeDays : List Int := [dayOf 2011 5 16]

/-- `misc_adhoc`, `xbkk_holidays.py` lines 173-183. -/
def miscAdhoc : List Int :=
  [dayOf 2006 4 19, dayOf 2006 6 12, dayOf 2006 6 13, dayOf 2006 9 20, dayOf 2007 12 24,
   dayOf 2010 5 20, dayOf 2010 5 21, dayOf 2012 4 9, dayOf 2017 10 26]

/-- `makha_bucha`, `xbkk_holidays.py` lines 191-232. -/
def makhaBucha : List Int :=
  [dayOf 1981 2 18, dayOf 1982 2 8, dayOf 1983 2 27, dayOf 1984 2 16, dayOf 1985 3 6,
   dayOf 1986 2 24, dayOf 1987 2 13, dayOf 1988 3 3, dayOf 1989 2 20, dayOf 1990 2 9,
   dayOf 1991 2 28, dayOf 1992 2 18, dayOf 1993 3 8, dayOf 1994 2 25, dayOf 1995 2 15,
   dayOf 1996 3 5, dayOf 1997 2 22, dayOf 1998 2 11, dayOf 1999 3 2, dayOf 2000 2 19,
   dayOf 2001 2 8, dayOf 2002 2 26, dayOf 2003 2 17, dayOf 2004 3 5, dayOf 2005 2 23,
   dayOf 2006 2 13, dayOf 2007 3 5, dayOf 2008 2 21, dayOf 2009 2 9, dayOf 2010 3 1,
   dayOf 2011 2 18, dayOf 2012 3 7, dayOf 2013 2 25, dayOf 2014 2 14, dayOf 2015 3 4,
   dayOf 2016 2 22, dayOf 2017 2 13, dayOf 2018 3 1, dayOf 2019 2 19, dayOf 2020 2 10]

/-- `vesak`, `xbkk_holidays.py` lines 236-277. -/
def vesak : List Int :=
  [dayOf 1981 5 18, dayOf 1982 5 7, dayOf 1983 5 26, dayOf 1984 5 15, dayOf 1985 6 2,
   dayOf 1986 5 23, dayOf 1987 5 13, dayOf 1988 5 31, dayOf 1989 5 20, dayOf 1990 5 9,
   dayOf 1991 5 28, dayOf 1992 5 16, dayOf 1993 6 4, dayOf 1994 5 24, dayOf 1995 5 14,
   dayOf 1996 6 1, dayOf 1997 5 22, dayOf 1998 5 11, dayOf 1999 5 30, dayOf 2000 5 18,
   dayOf 2001 5 7, dayOf 2002 5 27, dayOf 2003 5 15, dayOf 2004 6 2, dayOf 2005 5 23,
   dayOf 2006 5 12, dayOf 2007 5 31, dayOf 2008 5 19, dayOf 2009 5 8, dayOf 2010 5 28,
   dayOf 2011 5 17, dayOf 2012 6 4, dayOf 2013 5 24, dayOf 2014 5 13, dayOf 2015 6 1,
   dayOf 2016 5 20, dayOf 2017 5 10, dayOf 2018 5 29, dayOf 2019 5 20, dayOf 2020 5 6]

/-- `asanha_bucha`, `xbkk_holidays.py` lines 281-322. -/
def asanhaBucha : List Int :=
  [dayOf 1981 7 17, dayOf 1982 7 6, dayOf 1983 7 24, dayOf 1984 7 12, dayOf 1985 7 31,
   dayOf 1986 7 21, dayOf 1987 7 10, dayOf 1988 7 28, dayOf 1989 7 18, dayOf 1990 7 7,
   dayOf 1991 7 26, dayOf 1992 7 14, dayOf 1993 8 2, dayOf 1994 7 22, dayOf 1995 7 12,
   dayOf 1996 7 30, dayOf 1997 7 19, dayOf 1998 7 9, dayOf 1999 7 28, dayOf 2000 7 16,
   dayOf 2001 7 5, dayOf 2002 7 25, dayOf 2003 7 14, dayOf 2004 8 2, dayOf 2005 7 22,
   dayOf 2006 7 11, dayOf 2007 7 30, dayOf 2008 7 17, dayOf 2009 7 7, dayOf 2010 7 26,
   dayOf 2011 7 15, dayOf 2012 8 2, dayOf 2013 7 22, dayOf 2014 7 11, dayOf 2015 7 30,
   dayOf 2016 7 19, dayOf 2017 7 10, dayOf 2018 7 27, dayOf 2019 7 16, dayOf 2020 7 6]

end TC.XbkkHolidays
