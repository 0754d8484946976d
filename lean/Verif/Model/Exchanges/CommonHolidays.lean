import Verif.Model.Exchange

/-! `/repo/trading_calendars/common_holidays.py`, translated by `tools/gen_exchanges.py`. -/

namespace TC.CommonHolidays

/-- `eid_al_fitr_first_day`, `common_holidays.py` lines 296-368. -/
def eidAlFitrFirstDay : List Int :=
  [dayOf 1981 8 1, dayOf 1982 7 21, dayOf 1983 7 11, dayOf 1984 6 30, dayOf 1985 6 19,
   dayOf 1986 6 8, dayOf 1987 5 28, dayOf 1988 5 16, dayOf 1989 5 6, dayOf 1990 4 26,
   dayOf 1991 4 15, dayOf 1992 4 4, dayOf 1993 3 24, dayOf 1994 3 13, dayOf 1995 3 2,
   dayOf 1996 2 19, dayOf 1997 2 8, dayOf 1998 1 29, dayOf 1999 1 18, dayOf 2000 1 8,
   dayOf 2000 12 27, dayOf 2001 12 16, dayOf 2002 12 5, dayOf 2003 11 25, dayOf 2004 11 14,
   dayOf 2005 11 3, dayOf 2006 10 23, dayOf 2007 10 12, dayOf 2008 9 30, dayOf 2009 9 20,
   dayOf 2010 9 9, dayOf 2011 8 30, dayOf 2012 8 19, dayOf 2013 8 8, dayOf 2014 7 28,
   dayOf 2015 7 17, dayOf 2016 7 5, dayOf 2017 6 25, dayOf 2018 6 15, dayOf 2019 6 4,
   dayOf 2020 5 24, dayOf 2021 5 13, dayOf 2022 5 2, dayOf 2023 4 21, dayOf 2024 4 10,
   dayOf 2025 3 30, dayOf 2026 3 20, dayOf 2027 3 9, dayOf 2028 2 26, dayOf 2029 2 14,
   dayOf 2030 2 4, dayOf 2031 1 24, dayOf 2032 1 14, dayOf 2033 1 2, dayOf 2033 12 23,
   dayOf 2034 12 12, dayOf 2035 12 1, dayOf 2036 11 19, dayOf 2037 11 8, dayOf 2038 10 29,
   dayOf 2039 10 19, dayOf 2040 10 7, dayOf 2041 9 26, dayOf 2042 9 15, dayOf 2043 9 4,
   dayOf 2044 8 24, dayOf 2045 8 14, dayOf 2046 8 3, dayOf 2047 7 24, dayOf 2048 7 12,
   dayOf 2049 7 1]

/-- `eid_al_adha_first_day`, `common_holidays.py` lines 374-446. -/
def eidAlAdhaFirstDay : List Int :=
  [dayOf 1981 10 8, dayOf 1982 9 27, dayOf 1983 9 17, dayOf 1984 9 5, dayOf 1985 8 26,
   dayOf 1986 8 15, dayOf 1987 8 4, dayOf 1988 7 23, dayOf 1989 7 13, dayOf 1990 7 2,
   dayOf 1991 6 22, dayOf 1992 6 11, dayOf 1993 5 31, dayOf 1994 5 20, dayOf 1995 5 9,
   dayOf 1996 4 27, dayOf 1997 4 17, dayOf 1998 4 7, dayOf 1999 3 27, dayOf 2000 3 16,
   dayOf 2001 3 5, dayOf 2002 2 22, dayOf 2003 2 10, dayOf 2004 2 1, dayOf 2005 1 20,
   dayOf 2006 1 9, dayOf 2006 12 31, dayOf 2007 12 20, dayOf 2008 12 8, dayOf 2009 11 27,
   dayOf 2010 11 16, dayOf 2011 11 6, dayOf 2012 10 25, dayOf 2013 10 15, dayOf 2014 10 4,
   dayOf 2015 9 24, dayOf 2016 9 12, dayOf 2017 9 1, dayOf 2018 8 21, dayOf 2019 8 11,
   dayOf 2020 7 31, dayOf 2021 7 20, dayOf 2022 7 9, dayOf 2023 6 28, dayOf 2024 6 16,
   dayOf 2025 6 6, dayOf 2026 5 27, dayOf 2027 5 16, dayOf 2028 5 5, dayOf 2029 4 24,
   dayOf 2030 4 13, dayOf 2031 4 2, dayOf 2032 3 22, dayOf 2033 3 11, dayOf 2034 3 1,
   dayOf 2035 2 18, dayOf 2036 2 7, dayOf 2037 1 26, dayOf 2038 1 16, dayOf 2039 1 5,
   dayOf 2039 12 26, dayOf 2040 12 14, dayOf 2041 12 4, dayOf 2042 11 23, dayOf 2043 11 12,
   dayOf 2044 10 31, dayOf 2045 10 21, dayOf 2046 10 10, dayOf 2047 9 30, dayOf 2048 9 19,
   dayOf 2049 9 8]

end TC.CommonHolidays
