import Verif.Model.Exchange

/-! `/repo/trading_calendars/lunisolar_holidays.py`, translated by `tools/gen_exchanges.py`. -/

namespace TC.LunisolarHolidays

/-- `chinese_lunar_new_year_dates`, `lunisolar_holidays.py` lines 15-108. -/
def chineseLunarNewYearDates : List Int :=
  [dayOf 1960 1 28, dayOf 1961 2 15, dayOf 1962 2 5, dayOf 1963 1 25, dayOf 1964 2 13,
   dayOf 1965 2 2, dayOf 1966 1 21, dayOf 1967 2 9, dayOf 1968 1 30, dayOf 1969 2 17,
   dayOf 1970 2 6, dayOf 1971 1 27, dayOf 1972 2 15, dayOf 1973 2 3, dayOf 1974 1 23,
   dayOf 1975 2 11, dayOf 1976 1 31, dayOf 1977 2 18, dayOf 1978 2 7, dayOf 1979 1 28,
   dayOf 1980 2 16, dayOf 1981 2 5, dayOf 1982 1 25, dayOf 1983 2 13, dayOf 1984 2 2,
   dayOf 1985 2 20, dayOf 1986 2 9, dayOf 1987 1 29, dayOf 1988 2 17, dayOf 1989 2 6,
   dayOf 1990 1 27, dayOf 1991 2 15, dayOf 1992 2 4, dayOf 1993 1 23, dayOf 1994 2 10,
   dayOf 1995 1 31, dayOf 1996 2 19, dayOf 1997 2 7, dayOf 1998 1 28, dayOf 1999 2 16,
   dayOf 2000 2 5, dayOf 2001 1 24, dayOf 2002 2 12, dayOf 2003 2 1, dayOf 2004 1 22,
   dayOf 2005 2 9, dayOf 2006 1 29, dayOf 2007 2 18, dayOf 2008 2 7, dayOf 2009 1 26,
   dayOf 2010 2 14, dayOf 2011 2 3, dayOf 2012 1 23, dayOf 2013 2 10, dayOf 2014 1 31,
   dayOf 2015 2 19, dayOf 2016 2 8, dayOf 2017 1 28, dayOf 2018 2 16, dayOf 2019 2 5,
   dayOf 2020 1 25, dayOf 2021 2 12, dayOf 2022 2 1, dayOf 2023 1 22, dayOf 2024 2 10,
   dayOf 2025 1 29, dayOf 2026 2 17, dayOf 2027 2 6, dayOf 2028 1 26, dayOf 2029 2 13,
   dayOf 2030 2 3, dayOf 2031 1 23, dayOf 2032 2 11, dayOf 2033 1 31, dayOf 2034 2 19,
   dayOf 2035 2 8, dayOf 2036 1 28, dayOf 2037 2 15, dayOf 2038 2 4, dayOf 2039 1 24,
   dayOf 2040 2 12, dayOf 2041 2 1, dayOf 2042 1 22, dayOf 2043 2 10, dayOf 2044 1 30,
   dayOf 2045 2 17, dayOf 2046 2 6, dayOf 2047 1 26, dayOf 2048 2 14, dayOf 2049 2 2]

/-- `qingming_festival_dates`, `lunisolar_holidays.py` lines 116-209. -/
def qingmingFestivalDates : List Int :=
  [dayOf 1960 4 5, dayOf 1961 4 5, dayOf 1962 4 5, dayOf 1963 4 5, dayOf 1964 4 5, dayOf 1965 4 5,
   dayOf 1966 4 5, dayOf 1967 4 5, dayOf 1968 4 5, dayOf 1969 4 5, dayOf 1970 4 5, dayOf 1971 4 5,
   dayOf 1972 4 5, dayOf 1973 4 5, dayOf 1974 4 5, dayOf 1975 4 5, dayOf 1976 4 4, dayOf 1977 4 5,
   dayOf 1978 4 5, dayOf 1979 4 5, dayOf 1980 4 4, dayOf 1981 4 5, dayOf 1982 4 5, dayOf 1983 4 5,
   dayOf 1984 4 4, dayOf 1985 4 5, dayOf 1986 4 5, dayOf 1987 4 5, dayOf 1988 4 4, dayOf 1989 4 5,
   dayOf 1990 4 5, dayOf 1991 4 5, dayOf 1992 4 4, dayOf 1993 4 5, dayOf 1994 4 5, dayOf 1995 4 5,
   dayOf 1996 4 4, dayOf 1997 4 5, dayOf 1998 4 5, dayOf 1999 4 5, dayOf 2000 4 4, dayOf 2001 4 5,
   dayOf 2002 4 5, dayOf 2003 4 5, dayOf 2004 4 4, dayOf 2005 4 5, dayOf 2006 4 5, dayOf 2007 4 5,
   dayOf 2008 4 4, dayOf 2009 4 4, dayOf 2010 4 5, dayOf 2011 4 5, dayOf 2012 4 4, dayOf 2013 4 4,
   dayOf 2014 4 5, dayOf 2015 4 5, dayOf 2016 4 4, dayOf 2017 4 4, dayOf 2018 4 5, dayOf 2019 4 5,
   dayOf 2020 4 4, dayOf 2021 4 4, dayOf 2022 4 5, dayOf 2023 4 5, dayOf 2024 4 4, dayOf 2025 4 4,
   dayOf 2026 4 5, dayOf 2027 4 5, dayOf 2028 4 4, dayOf 2029 4 4, dayOf 2030 4 5, dayOf 2031 4 5,
   dayOf 2032 4 4, dayOf 2033 4 4, dayOf 2034 4 5, dayOf 2035 4 5, dayOf 2036 4 4, dayOf 2037 4 4,
   dayOf 2038 4 5, dayOf 2039 4 5, dayOf 2040 4 4, dayOf 2041 4 4, dayOf 2042 4 4, dayOf 2043 4 5,
   dayOf 2044 4 4, dayOf 2045 4 4, dayOf 2046 4 4, dayOf 2047 4 5, dayOf 2048 4 4, dayOf 2049 4 4]

/-- `chinese_buddhas_birthday_dates`, `lunisolar_holidays.py` lines 223-317. -/
def chineseBuddhasBirthdayDates : List Int :=
  [dayOf 1959 5 15, dayOf 1960 5 3, dayOf 1961 5 22, dayOf 1962 5 11, dayOf 1963 5 1,
   dayOf 1964 5 19, dayOf 1965 5 8, dayOf 1966 5 27, dayOf 1967 5 16, dayOf 1968 5 4,
   dayOf 1969 5 23, dayOf 1970 5 12, dayOf 1971 5 2, dayOf 1972 5 20, dayOf 1973 5 10,
   dayOf 1974 4 29, dayOf 1975 5 18, dayOf 1976 5 6, dayOf 1977 5 25, dayOf 1978 5 14,
   dayOf 1979 5 3, dayOf 1980 5 21, dayOf 1981 5 11, dayOf 1982 5 1, dayOf 1983 5 20,
   dayOf 1984 5 8, dayOf 1985 5 27, dayOf 1986 5 16, dayOf 1987 5 5, dayOf 1988 5 23,
   dayOf 1989 5 12, dayOf 1990 5 2, dayOf 1991 5 21, dayOf 1992 5 10, dayOf 1993 5 28,
   dayOf 1994 5 18, dayOf 1995 5 7, dayOf 1996 5 24, dayOf 1997 5 14, dayOf 1998 5 3,
   dayOf 1999 5 22, dayOf 2000 5 11, dayOf 2001 4 30, dayOf 2002 5 19, dayOf 2003 5 8,
   dayOf 2004 5 26, dayOf 2005 5 15, dayOf 2006 5 5, dayOf 2007 5 24, dayOf 2008 5 12,
   dayOf 2009 5 2, dayOf 2010 5 21, dayOf 2011 5 10, dayOf 2012 4 28, dayOf 2013 5 17,
   dayOf 2014 5 6, dayOf 2015 5 25, dayOf 2016 5 14, dayOf 2017 5 3, dayOf 2018 5 22,
   dayOf 2019 5 12, dayOf 2020 4 30, dayOf 2021 5 19, dayOf 2022 5 8, dayOf 2023 5 26,
   dayOf 2024 5 15, dayOf 2025 5 5, dayOf 2026 5 24, dayOf 2027 5 13, dayOf 2028 5 2,
   dayOf 2029 5 20, dayOf 2030 5 9, dayOf 2031 5 28, dayOf 2032 5 16, dayOf 2033 5 6,
   dayOf 2034 4 26, dayOf 2035 5 15, dayOf 2036 5 3, dayOf 2037 5 22, dayOf 2038 5 11,
   dayOf 2039 4 30, dayOf 2040 5 18, dayOf 2041 5 7, dayOf 2042 5 26, dayOf 2043 5 16,
   dayOf 2044 5 5, dayOf 2045 5 24, dayOf 2046 5 13, dayOf 2047 5 2, dayOf 2048 5 20,
   dayOf 2049 5 9]

/-- `dragon_boat_festival_dates`, `lunisolar_holidays.py` lines 325-418. -/
def dragonBoatFestivalDates : List Int :=
  [dayOf 1960 5 29, dayOf 1961 6 17, dayOf 1962 6 6, dayOf 1963 6 25, dayOf 1964 6 14,
   dayOf 1965 6 4, dayOf 1966 6 23, dayOf 1967 6 12, dayOf 1968 5 31, dayOf 1969 6 19,
   dayOf 1970 6 8, dayOf 1971 5 28, dayOf 1972 6 15, dayOf 1973 6 5, dayOf 1974 6 24,
   dayOf 1975 6 14, dayOf 1976 6 2, dayOf 1977 6 21, dayOf 1978 6 10, dayOf 1979 5 30,
   dayOf 1980 6 17, dayOf 1981 6 6, dayOf 1982 6 25, dayOf 1983 6 15, dayOf 1984 6 4,
   dayOf 1985 6 22, dayOf 1986 6 11, dayOf 1987 6 1, dayOf 1988 6 18, dayOf 1989 6 8,
   dayOf 1990 5 28, dayOf 1991 6 16, dayOf 1992 6 5, dayOf 1993 6 24, dayOf 1994 6 13,
   dayOf 1995 6 2, dayOf 1996 6 20, dayOf 1997 6 9, dayOf 1998 5 30, dayOf 1999 6 18,
   dayOf 2000 6 6, dayOf 2001 6 25, dayOf 2002 6 15, dayOf 2003 6 4, dayOf 2004 6 22,
   dayOf 2005 6 11, dayOf 2006 5 31, dayOf 2007 6 19, dayOf 2008 6 8, dayOf 2009 5 28,
   dayOf 2010 6 16, dayOf 2011 6 6, dayOf 2012 6 23, dayOf 2013 6 12, dayOf 2014 6 2,
   dayOf 2015 6 20, dayOf 2016 6 9, dayOf 2017 5 30, dayOf 2018 6 18, dayOf 2019 6 7,
   dayOf 2020 6 25, dayOf 2021 6 14, dayOf 2022 6 3, dayOf 2023 6 22, dayOf 2024 6 10,
   dayOf 2025 5 31, dayOf 2026 6 19, dayOf 2027 6 9, dayOf 2028 5 28, dayOf 2029 6 16,
   dayOf 2030 6 5, dayOf 2031 6 24, dayOf 2032 6 12, dayOf 2033 6 1, dayOf 2034 5 22,
   dayOf 2035 6 10, dayOf 2036 5 30, dayOf 2037 6 18, dayOf 2038 6 7, dayOf 2039 5 27,
   dayOf 2040 6 14, dayOf 2041 6 3, dayOf 2042 6 22, dayOf 2043 6 11, dayOf 2044 5 31,
   dayOf 2045 6 19, dayOf 2046 6 8, dayOf 2047 5 29, dayOf 2048 6 15, dayOf 2049 6 4]

/-- `mid_autumn_festival_dates`, `lunisolar_holidays.py` lines 427-520. -/
def midAutumnFestivalDates : List Int :=
  [dayOf 1960 10 5, dayOf 1961 9 24, dayOf 1962 9 13, dayOf 1963 10 2, dayOf 1964 9 20,
   dayOf 1965 9 10, dayOf 1966 9 29, dayOf 1967 9 18, dayOf 1968 10 6, dayOf 1969 9 26,
   dayOf 1970 9 15, dayOf 1971 10 3, dayOf 1972 9 22, dayOf 1973 9 11, dayOf 1974 9 30,
   dayOf 1975 9 20, dayOf 1976 9 8, dayOf 1977 9 27, dayOf 1978 9 17, dayOf 1979 10 5,
   dayOf 1980 9 23, dayOf 1981 9 12, dayOf 1982 10 1, dayOf 1983 9 21, dayOf 1984 9 10,
   dayOf 1985 9 29, dayOf 1986 9 18, dayOf 1987 10 7, dayOf 1988 9 25, dayOf 1989 9 14,
   dayOf 1990 10 3, dayOf 1991 9 22, dayOf 1992 9 11, dayOf 1993 9 30, dayOf 1994 9 20,
   dayOf 1995 9 9, dayOf 1996 9 27, dayOf 1997 9 16, dayOf 1998 10 5, dayOf 1999 9 24,
   dayOf 2000 9 12, dayOf 2001 10 1, dayOf 2002 9 21, dayOf 2003 9 11, dayOf 2004 9 28,
   dayOf 2005 9 18, dayOf 2006 10 6, dayOf 2007 9 25, dayOf 2008 9 14, dayOf 2009 10 3,
   dayOf 2010 9 22, dayOf 2011 9 12, dayOf 2012 9 30, dayOf 2013 9 19, dayOf 2014 9 8,
   dayOf 2015 9 27, dayOf 2016 9 15, dayOf 2017 10 4, dayOf 2018 9 24, dayOf 2019 9 13,
   dayOf 2020 10 1, dayOf 2021 9 21, dayOf 2022 9 10, dayOf 2023 9 29, dayOf 2024 9 17,
   dayOf 2025 10 6, dayOf 2026 9 25, dayOf 2027 9 15, dayOf 2028 10 3, dayOf 2029 9 22,
   dayOf 2030 9 12, dayOf 2031 10 1, dayOf 2032 9 19, dayOf 2033 9 8, dayOf 2034 8 28,
   dayOf 2035 9 16, dayOf 2036 10 4, dayOf 2037 9 24, dayOf 2038 9 13, dayOf 2039 10 2,
   dayOf 2040 9 20, dayOf 2041 9 10, dayOf 2042 9 28, dayOf 2043 9 17, dayOf 2044 10 5,
   dayOf 2045 9 25, dayOf 2046 9 15, dayOf 2047 10 4, dayOf 2048 9 22, dayOf 2049 9 11]

/-- `double_ninth_festival_dates`, `lunisolar_holidays.py` lines 527-621. -/
def doubleNinthFestivalDates : List Int :=
  [dayOf 1959 10 10, dayOf 1960 10 28, dayOf 1961 10 18, dayOf 1962 10 7, dayOf 1963 10 25,
   dayOf 1964 10 14, dayOf 1965 10 3, dayOf 1966 10 22, dayOf 1967 10 12, dayOf 1968 10 30,
   dayOf 1969 10 19, dayOf 1970 10 8, dayOf 1971 10 27, dayOf 1972 10 15, dayOf 1973 10 4,
   dayOf 1974 10 23, dayOf 1975 10 13, dayOf 1976 10 31, dayOf 1977 10 21, dayOf 1978 10 10,
   dayOf 1979 10 29, dayOf 1980 10 17, dayOf 1981 10 6, dayOf 1982 10 25, dayOf 1983 10 14,
   dayOf 1984 10 3, dayOf 1985 10 22, dayOf 1986 10 12, dayOf 1987 10 31, dayOf 1988 10 19,
   dayOf 1989 10 8, dayOf 1990 10 26, dayOf 1991 10 16, dayOf 1992 10 4, dayOf 1993 10 23,
   dayOf 1994 10 13, dayOf 1995 11 1, dayOf 1996 10 20, dayOf 1997 10 10, dayOf 1998 10 28,
   dayOf 1999 10 17, dayOf 2000 10 6, dayOf 2001 10 25, dayOf 2002 10 14, dayOf 2003 10 4,
   dayOf 2004 10 22, dayOf 2005 10 11, dayOf 2006 10 30, dayOf 2007 10 19, dayOf 2008 10 7,
   dayOf 2009 10 26, dayOf 2010 10 16, dayOf 2011 10 5, dayOf 2012 10 23, dayOf 2013 10 13,
   dayOf 2014 10 2, dayOf 2015 10 21, dayOf 2016 10 9, dayOf 2017 10 28, dayOf 2018 10 17,
   dayOf 2019 10 7, dayOf 2020 10 25, dayOf 2021 10 14, dayOf 2022 10 4, dayOf 2023 10 23,
   dayOf 2024 10 11, dayOf 2025 10 29, dayOf 2026 10 18, dayOf 2027 10 8, dayOf 2028 10 26,
   dayOf 2029 10 16, dayOf 2030 10 5, dayOf 2031 10 24, dayOf 2032 10 12, dayOf 2033 10 1,
   dayOf 2034 9 21, dayOf 2035 10 9, dayOf 2036 10 27, dayOf 2037 10 17, dayOf 2038 10 7,
   dayOf 2039 10 26, dayOf 2040 10 14, dayOf 2041 10 3, dayOf 2042 10 22, dayOf 2043 10 11,
   dayOf 2044 10 29, dayOf 2045 10 18, dayOf 2046 10 8, dayOf 2047 10 27, dayOf 2048 10 16,
   dayOf 2049 10 5]

end TC.LunisolarHolidays
