import Verif.Model.Exchange
import Verif.Model.Exchanges.LunisolarHolidays

/-! `/repo/trading_calendars/xkls_holidays.py`, translated by `tools/gen_exchanges.py`. -/

namespace TC.XklsHolidays

/-- `malaysia_nuzul_al_quran`, `xkls_holidays.py` lines 20-58. -/
def malaysiaNuzulAlQuran : List Int :=
  [dayOf 2014 7 15, dayOf 2015 7 4, dayOf 2016 6 22, dayOf 2017 6 12, dayOf 2018 6 2,
   dayOf 2019 5 22, dayOf 2020 5 10, dayOf 2021 4 29, dayOf 2022 4 18, dayOf 2023 4 8,
   dayOf 2024 3 27, dayOf 2025 3 17, dayOf 2026 3 6, dayOf 2027 2 24, dayOf 2028 2 13,
   dayOf 2029 2 1, dayOf 2030 1 21, dayOf 2031 1 11, dayOf 2031 12 31, dayOf 2032 12 20,
   dayOf 2033 12 9, dayOf 2034 11 28, dayOf 2035 11 17, dayOf 2036 11 5, dayOf 2037 10 26,
   dayOf 2038 10 16, dayOf 2039 10 5, dayOf 2040 9 23, dayOf 2041 9 13, dayOf 2042 9 2,
   dayOf 2043 8 22, dayOf 2044 8 11, dayOf 2045 7 31, dayOf 2046 7 21, dayOf 2047 7 10,
   dayOf 2048 6 28, dayOf 2049 6 18]

/-- `muharram`, `xkls_holidays.py` lines 61-133. -/
def muharram : List Int :=
  [dayOf 1980 11 9, dayOf 1981 10 28, dayOf 1982 10 18, dayOf 1983 10 7, dayOf 1984 9 26,
   dayOf 1985 9 15, dayOf 1986 9 5, dayOf 1987 8 25, dayOf 1988 8 13, dayOf 1989 8 2,
   dayOf 1990 7 23, dayOf 1991 7 12, dayOf 1992 7 1, dayOf 1993 6 21, dayOf 1994 6 10,
   dayOf 1995 5 30, dayOf 1996 5 18, dayOf 1997 5 7, dayOf 1998 4 27, dayOf 1999 4 17,
   dayOf 2000 4 6, dayOf 2001 3 26, dayOf 2002 3 15, dayOf 2003 3 4, dayOf 2004 2 22,
   dayOf 2005 2 11, dayOf 2006 2 1, dayOf 2007 1 20, dayOf 2008 1 10, dayOf 2008 12 29,
   dayOf 2009 12 18, dayOf 2010 12 7, dayOf 2011 11 27, dayOf 2012 11 15, dayOf 2013 11 5,
   dayOf 2014 10 25, dayOf 2015 10 14, dayOf 2016 10 2, dayOf 2017 9 22, dayOf 2018 9 11,
   dayOf 2019 9 1, dayOf 2020 8 20, dayOf 2021 8 9, dayOf 2022 7 30, dayOf 2023 7 19,
   dayOf 2024 7 7, dayOf 2025 6 26, dayOf 2026 6 16, dayOf 2027 6 6, dayOf 2028 5 25,
   dayOf 2029 5 14, dayOf 2030 5 3, dayOf 2031 4 23, dayOf 2032 4 11, dayOf 2033 4 1,
   dayOf 2034 3 21, dayOf 2035 3 11, dayOf 2036 2 28, dayOf 2037 2 16, dayOf 2038 2 5,
   dayOf 2039 1 26, dayOf 2040 1 15, dayOf 2041 1 4, dayOf 2041 12 24, dayOf 2042 12 14,
   dayOf 2043 12 3, dayOf 2044 11 21, dayOf 2045 11 10, dayOf 2046 10 31, dayOf 2047 10 20,
   dayOf 2048 10 9]

/-- `muhammad_birthday`, `xkls_holidays.py` lines 137-208. -/
def muhammadBirthday : List Int :=
  [dayOf 1981 1 18, dayOf 1982 1 7, dayOf 1982 12 27, dayOf 1983 12 16, dayOf 1984 12 4,
   dayOf 1985 11 24, dayOf 1986 11 14, dayOf 1987 11 3, dayOf 1988 10 22, dayOf 1989 10 11,
   dayOf 1990 10 1, dayOf 1991 9 20, dayOf 1992 9 9, dayOf 1993 8 29, dayOf 1994 8 19,
   dayOf 1995 8 8, dayOf 1996 7 27, dayOf 1997 7 16, dayOf 1998 7 6, dayOf 1999 6 26,
   dayOf 2000 6 14, dayOf 2001 6 4, dayOf 2002 5 27, dayOf 2003 5 14, dayOf 2004 5 3,
   dayOf 2005 4 21, dayOf 2006 4 11, dayOf 2007 3 31, dayOf 2008 3 20, dayOf 2009 3 9,
   dayOf 2010 2 26, dayOf 2011 2 15, dayOf 2012 2 6, dayOf 2013 1 24, dayOf 2014 1 14,
   dayOf 2015 12 24, dayOf 2016 12 11, dayOf 2017 12 1, dayOf 2018 11 20, dayOf 2019 11 9,
   dayOf 2020 10 29, dayOf 2021 10 18, dayOf 2022 10 8, dayOf 2023 9 27, dayOf 2024 9 15,
   dayOf 2025 9 4, dayOf 2026 8 25, dayOf 2027 8 14, dayOf 2028 8 3, dayOf 2029 7 24,
   dayOf 2030 7 13, dayOf 2031 7 2, dayOf 2032 6 20, dayOf 2033 6 9, dayOf 2034 5 30,
   dayOf 2035 5 20, dayOf 2036 5 8, dayOf 2037 4 28, dayOf 2038 4 17, dayOf 2039 4 6,
   dayOf 2040 3 25, dayOf 2041 3 15, dayOf 2042 3 4, dayOf 2043 2 22, dayOf 2044 2 11,
   dayOf 2045 1 30, dayOf 2046 1 19, dayOf 2047 1 8, dayOf 2047 12 29, dayOf 2048 12 18]

/-- `malaysia_eid_al_fitr_first_day`, `xkls_holidays.py` lines 211-283. -/
def malaysiaEidAlFitrFirstDay : List Int :=
  [dayOf 1981 8 1, dayOf 1982 7 21, dayOf 1983 7 11, dayOf 1984 6 30, dayOf 1985 6 19,
   dayOf 1986 6 8, dayOf 1987 5 28, dayOf 1988 5 16, dayOf 1989 5 6, dayOf 1990 4 26,
   dayOf 1991 4 15, dayOf 1992 4 4, dayOf 1993 3 24, dayOf 1994 3 13, dayOf 1995 3 2,
   dayOf 1996 2 19, dayOf 1997 2 8, dayOf 1998 1 29, dayOf 1999 1 18, dayOf 2000 1 8,
   dayOf 2000 12 27, dayOf 2001 12 16, dayOf 2002 12 5, dayOf 2003 11 25, dayOf 2004 11 14,
   dayOf 2005 11 3, dayOf 2006 10 23, dayOf 2007 10 13, dayOf 2008 10 1, dayOf 2009 9 20,
   dayOf 2010 9 10, dayOf 2011 8 30, dayOf 2012 8 19, dayOf 2013 8 8, dayOf 2014 7 28,
   dayOf 2015 7 17, dayOf 2016 7 6, dayOf 2017 6 25, dayOf 2018 6 15, dayOf 2019 6 5,
   dayOf 2020 5 24, dayOf 2021 5 13, dayOf 2022 5 2, dayOf 2023 4 21, dayOf 2024 4 10,
   dayOf 2025 3 30, dayOf 2026 3 20, dayOf 2027 3 9, dayOf 2028 2 26, dayOf 2029 2 14,
   dayOf 2030 2 4, dayOf 2031 1 24, dayOf 2032 1 14, dayOf 2033 1 2, dayOf 2033 12 23,
   dayOf 2034 12 12, dayOf 2035 12 1, dayOf 2036 11 19, dayOf 2037 11 8, dayOf 2038 10 29,
   dayOf 2039 10 19, dayOf 2040 10 7, dayOf 2041 9 26, dayOf 2042 9 15, dayOf 2043 9 4,
   dayOf 2044 8 24, dayOf 2045 8 14, dayOf 2046 8 3, dayOf 2047 7 24, dayOf 2048 7 12,
   dayOf 2049 7 1]

/-- `malaysia_eid_al_adha`, `xkls_holidays.py` lines 286-358. -/
def malaysiaEidAlAdha : List Int :=
  [dayOf 1981 10 8, dayOf 1982 9 27, dayOf 1983 9 17, dayOf 1984 9 5, dayOf 1985 8 26,
   dayOf 1986 8 15, dayOf 1987 8 4, dayOf 1988 7 23, dayOf 1989 7 13, dayOf 1990 7 2,
   dayOf 1991 6 22, dayOf 1992 6 11, dayOf 1993 5 31, dayOf 1994 5 20, dayOf 1995 5 9,
   dayOf 1996 4 27, dayOf 1997 4 17, dayOf 1998 4 7, dayOf 1999 3 27, dayOf 2000 3 16,
   dayOf 2001 3 5, dayOf 2002 2 23, dayOf 2003 2 12, dayOf 2004 2 3, dayOf 2005 1 21,
   dayOf 2006 1 10, dayOf 2007 1 2, dayOf 2007 12 20, dayOf 2008 12 8, dayOf 2009 11 27,
   dayOf 2010 11 17, dayOf 2011 11 6, dayOf 2012 10 26, dayOf 2013 10 15, dayOf 2014 10 5,
   dayOf 2015 9 24, dayOf 2016 9 12, dayOf 2017 9 1, dayOf 2018 8 22, dayOf 2019 8 11,
   dayOf 2020 7 31, dayOf 2021 7 20, dayOf 2022 7 9, dayOf 2023 6 28, dayOf 2024 6 16,
   dayOf 2025 6 6, dayOf 2026 5 27, dayOf 2027 5 16, dayOf 2028 5 5, dayOf 2029 4 24,
   dayOf 2030 4 13, dayOf 2031 4 2, dayOf 2032 3 22, dayOf 2033 3 11, dayOf 2034 3 1,
   dayOf 2035 2 18, dayOf 2036 2 7, dayOf 2037 1 26, dayOf 2038 1 16, dayOf 2039 1 5,
   dayOf 2039 12 26, dayOf 2040 12 14, dayOf 2041 12 4, dayOf 2042 11 23, dayOf 2043 11 12,
   dayOf 2044 10 31, dayOf 2045 10 21, dayOf 2046 10 10, dayOf 2047 9 30, dayOf 2048 9 19,
   dayOf 2049 9 8]

/-- `deepavali`, `xkls_holidays.py` lines 361-377. -/
def deepavali : List Int :=
  [dayOf 2002 11 4, dayOf 2003 10 24, dayOf 2004 11 11, dayOf 2004 11 12, dayOf 2005 11 1,
   dayOf 2007 11 8, dayOf 2008 10 27, dayOf 2010 11 5, dayOf 2011 10 26, dayOf 2012 11 13,
   dayOf 2014 10 22, dayOf 2015 11 10, dayOf 2017 10 18, dayOf 2018 11 6, dayOf 2019 10 28]

/-- `thaipusam`, `xkls_holidays.py` lines 380-393. -/
def thaipusam : List Int :=
  [dayOf 2008 1 23, dayOf 2009 2 9, dayOf 2010 1 30, dayOf 2011 1 20, dayOf 2012 2 7,
   dayOf 2013 1 28, dayOf 2014 1 17, dayOf 2015 2 3, dayOf 2016 1 25, dayOf 2017 2 9,
   dayOf 2018 1 31, dayOf 2019 1 21]

/-- `wesak_day`, `xkls_holidays.py` lines 396-412. -/
def wesakDay : List Int :=
  [dayOf 2003 5 15, dayOf 2004 5 4, dayOf 2005 5 23, dayOf 2006 5 12, dayOf 2007 5 2,
   dayOf 2008 5 19, dayOf 2010 5 28, dayOf 2011 5 17, dayOf 2013 5 24, dayOf 2014 5 13,
   dayOf 2015 5 4, dayOf 2017 5 10, dayOf 2018 5 29, dayOf 2019 5 20, dayOf 2020 5 7]

/-- `misc_adhoc`, `xkls_holidays.py` lines 414-437. -/
def miscAdhoc : List Int :=
  [dayOf 2019 9 9, dayOf 2019 7 30, dayOf 2018 9 10, dayOf 2018 5 11, dayOf 2018 5 10,
   dayOf 2018 5 9, dayOf 2017 9 4, dayOf 2017 4 24, dayOf 2014 2 3, dayOf 2012 4 11, dayOf 2011 9 1,
   dayOf 2010 12 31, dayOf 2008 7 3, dayOf 2007 4 26, dayOf 2006 10 25, dayOf 2006 2 2,
   dayOf 2004 1 21, dayOf 2003 11 24, dayOf 2003 2 4, dayOf 2003 1 31, dayOf 2002 4 25,
   dayOf 2002 2 11]

/-- `NewYearsDay`, `xkls_holidays.py` line 440. -/
def newYearsDay : Rule := TC.newYearsDay (observance := some .sundayToMonday)

/-- `Thaipusam`, `xkls_holidays.py` line 442. -/
def thaipusam' : List Int := TC.XklsHolidays.thaipusam

/-- `FederalTerritoryDay`, `xkls_holidays.py` lines 444-449. -/
def federalTerritoryDay : Rule := { month := 2, day := 1, observance := some .sundayToMonday }

/-- `ChineseNewYear`, `xkls_holidays.py` lines 451-455. -/
def chineseNewYear : List Int := TC.LunisolarHolidays.chineseLunarNewYearDates.map TC.sundayToMonday

/-- `ChineseNewYearDay2`, `xkls_holidays.py` lines 457-459. -/
def chineseNewYearDay2 : List Int :=
  (TC.XklsHolidays.chineseNewYear.map (· + 1)).map TC.sundayToMonday

/-- `LabourDay`, `xkls_holidays.py` line 461. -/
def labourDay : Rule := TC.europeanLabourDay (observance := some .sundayToMonday)

/-- `WesakDay`, `xkls_holidays.py` line 463. -/
def wesakDay' : List Int := TC.XklsHolidays.wesakDay

/-- `NuzulAlQuran`, `xkls_holidays.py` lines 465-467. -/
def nuzulAlQuran : List Int := TC.XklsHolidays.malaysiaNuzulAlQuran.map TC.sundayToMonday

/-- `EidAlFitrDay1`, `xkls_holidays.py` lines 469-473. -/
def eidAlFitrDay1 : List Int := TC.XklsHolidays.malaysiaEidAlFitrFirstDay.map TC.sundayToMonday

/-- `EidAlFitrDay2`, `xkls_holidays.py` lines 475-477. -/
def eidAlFitrDay2 : List Int := (TC.XklsHolidays.eidAlFitrDay1.map (· + 1)).map TC.sundayToMonday

/-- `EidAlAdha`, `xkls_holidays.py` lines 479-481. -/
def eidAlAdha : List Int := TC.XklsHolidays.malaysiaEidAlAdha.map TC.sundayToMonday

/-- `NationalDay`, `xkls_holidays.py` lines 483-488. -/
def nationalDay : Rule := { month := 8, day := 31, observance := some .sundayToMonday }

/-- `Muharram`, `xkls_holidays.py` lines 490-492. -/
def muharram' : List Int := TC.XklsHolidays.muharram.map TC.sundayToMonday

/-- `MalaysiaDay`, `xkls_holidays.py` lines 494-500. -/
def malaysiaDay : Rule :=
  { month := 9, day := 16, observance := some .sundayToMonday,
    startDate := some (dayOf 2010 1 1) }

/-- `Deepavali`, `xkls_holidays.py` line 502. -/
def deepavali' : List Int := TC.XklsHolidays.deepavali

/-- `MuhammadBirthday`, `xkls_holidays.py` lines 504-506. -/
def muhammadBirthday' : List Int := TC.XklsHolidays.muhammadBirthday.map TC.sundayToMonday

/-- `ChristmasDay`, `xkls_holidays.py` line 508. -/
def christmasDay : Rule := TC.christmas (observance := some .sundayToMonday)

/-- `ChineseNewYearsEve`, `xkls_holidays.py` line 511. -/
def chineseNewYearsEve : List Int := TC.XklsHolidays.chineseNewYear.map (· - 1)

/-- `ChineseNewYearsHalfDay`, `xkls_holidays.py` lines 513-515. -/
def chineseNewYearsHalfDay : List Int :=
  TC.XklsHolidays.chineseNewYearsEve.filter (fun d => !([5, 6].contains (weekday d)))

/-- `EidAlFitrEve`, `xkls_holidays.py` line 517. -/
def eidAlFitrEve : List Int := TC.XklsHolidays.eidAlFitrDay1.map (· - 1)

/-- `EidAlFitrHalfDay`, `xkls_holidays.py` lines 519-521. -/
def eidAlFitrHalfDay : List Int :=
  TC.XklsHolidays.eidAlFitrEve.filter (fun d => !([5, 6].contains (weekday d)))

end TC.XklsHolidays
