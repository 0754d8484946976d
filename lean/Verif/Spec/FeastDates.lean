import Verif.Spec.Books

/-!
# Dates of movable feasts and single closures

As printed in the repository.  Written by `tools/gen_feasts.py`.
-/

namespace TC.Spec.Feasts

/-- Chinese new year (`lunisolar_holidays.py` lines 15-108). -/
def lunarNewYear : List (Int × Int × Int) :=
  [(1960, 1, 28), (1961, 2, 15), (1962, 2, 5), (1963, 1, 25), (1964, 2, 13), (1965, 2, 2),
   (1966, 1, 21), (1967, 2, 9), (1968, 1, 30), (1969, 2, 17), (1970, 2, 6), (1971, 1, 27),
   (1972, 2, 15), (1973, 2, 3), (1974, 1, 23), (1975, 2, 11), (1976, 1, 31), (1977, 2, 18),
   (1978, 2, 7), (1979, 1, 28), (1980, 2, 16), (1981, 2, 5), (1982, 1, 25), (1983, 2, 13),
   (1984, 2, 2), (1985, 2, 20), (1986, 2, 9), (1987, 1, 29), (1988, 2, 17), (1989, 2, 6),
   (1990, 1, 27), (1991, 2, 15), (1992, 2, 4), (1993, 1, 23), (1994, 2, 10), (1995, 1, 31),
   (1996, 2, 19), (1997, 2, 7), (1998, 1, 28), (1999, 2, 16), (2000, 2, 5), (2001, 1, 24),
   (2002, 2, 12), (2003, 2, 1), (2004, 1, 22), (2005, 2, 9), (2006, 1, 29), (2007, 2, 18),
   (2008, 2, 7), (2009, 1, 26), (2010, 2, 14), (2011, 2, 3), (2012, 1, 23), (2013, 2, 10),
   (2014, 1, 31), (2015, 2, 19), (2016, 2, 8), (2017, 1, 28), (2018, 2, 16), (2019, 2, 5),
   (2020, 1, 25), (2021, 2, 12), (2022, 2, 1), (2023, 1, 22), (2024, 2, 10), (2025, 1, 29),
   (2026, 2, 17), (2027, 2, 6), (2028, 1, 26), (2029, 2, 13), (2030, 2, 3), (2031, 1, 23),
   (2032, 2, 11), (2033, 1, 31), (2034, 2, 19), (2035, 2, 8), (2036, 1, 28), (2037, 2, 15),
   (2038, 2, 4), (2039, 1, 24), (2040, 2, 12), (2041, 2, 1), (2042, 1, 22), (2043, 2, 10),
   (2044, 1, 30), (2045, 2, 17), (2046, 2, 6), (2047, 1, 26), (2048, 2, 14), (2049, 2, 2)]

/-- Qingming (`lunisolar_holidays.py` lines 116-209). -/
def qingming : List (Int × Int × Int) :=
  [(1960, 4, 5), (1961, 4, 5), (1962, 4, 5), (1963, 4, 5), (1964, 4, 5), (1965, 4, 5), (1966, 4, 5),
   (1967, 4, 5), (1968, 4, 5), (1969, 4, 5), (1970, 4, 5), (1971, 4, 5), (1972, 4, 5), (1973, 4, 5),
   (1974, 4, 5), (1975, 4, 5), (1976, 4, 4), (1977, 4, 5), (1978, 4, 5), (1979, 4, 5), (1980, 4, 4),
   (1981, 4, 5), (1982, 4, 5), (1983, 4, 5), (1984, 4, 4), (1985, 4, 5), (1986, 4, 5), (1987, 4, 5),
   (1988, 4, 4), (1989, 4, 5), (1990, 4, 5), (1991, 4, 5), (1992, 4, 4), (1993, 4, 5), (1994, 4, 5),
   (1995, 4, 5), (1996, 4, 4), (1997, 4, 5), (1998, 4, 5), (1999, 4, 5), (2000, 4, 4), (2001, 4, 5),
   (2002, 4, 5), (2003, 4, 5), (2004, 4, 4), (2005, 4, 5), (2006, 4, 5), (2007, 4, 5), (2008, 4, 4),
   (2009, 4, 4), (2010, 4, 5), (2011, 4, 5), (2012, 4, 4), (2013, 4, 4), (2014, 4, 5), (2015, 4, 5),
   (2016, 4, 4), (2017, 4, 4), (2018, 4, 5), (2019, 4, 5), (2020, 4, 4), (2021, 4, 4), (2022, 4, 5),
   (2023, 4, 5), (2024, 4, 4), (2025, 4, 4), (2026, 4, 5), (2027, 4, 5), (2028, 4, 4), (2029, 4, 4),
   (2030, 4, 5), (2031, 4, 5), (2032, 4, 4), (2033, 4, 4), (2034, 4, 5), (2035, 4, 5), (2036, 4, 4),
   (2037, 4, 4), (2038, 4, 5), (2039, 4, 5), (2040, 4, 4), (2041, 4, 4), (2042, 4, 4), (2043, 4, 5),
   (2044, 4, 4), (2045, 4, 4), (2046, 4, 4), (2047, 4, 5), (2048, 4, 4), (2049, 4, 4)]

/-- Buddha's birthday, Chinese reckoning (`lunisolar_holidays.py` lines 223-317). -/
def buddhasBirthday : List (Int × Int × Int) :=
  [(1959, 5, 15), (1960, 5, 3), (1961, 5, 22), (1962, 5, 11), (1963, 5, 1), (1964, 5, 19),
   (1965, 5, 8), (1966, 5, 27), (1967, 5, 16), (1968, 5, 4), (1969, 5, 23), (1970, 5, 12),
   (1971, 5, 2), (1972, 5, 20), (1973, 5, 10), (1974, 4, 29), (1975, 5, 18), (1976, 5, 6),
   (1977, 5, 25), (1978, 5, 14), (1979, 5, 3), (1980, 5, 21), (1981, 5, 11), (1982, 5, 1),
   (1983, 5, 20), (1984, 5, 8), (1985, 5, 27), (1986, 5, 16), (1987, 5, 5), (1988, 5, 23),
   (1989, 5, 12), (1990, 5, 2), (1991, 5, 21), (1992, 5, 10), (1993, 5, 28), (1994, 5, 18),
   (1995, 5, 7), (1996, 5, 24), (1997, 5, 14), (1998, 5, 3), (1999, 5, 22), (2000, 5, 11),
   (2001, 4, 30), (2002, 5, 19), (2003, 5, 8), (2004, 5, 26), (2005, 5, 15), (2006, 5, 5),
   (2007, 5, 24), (2008, 5, 12), (2009, 5, 2), (2010, 5, 21), (2011, 5, 10), (2012, 4, 28),
   (2013, 5, 17), (2014, 5, 6), (2015, 5, 25), (2016, 5, 14), (2017, 5, 3), (2018, 5, 22),
   (2019, 5, 12), (2020, 4, 30), (2021, 5, 19), (2022, 5, 8), (2023, 5, 26), (2024, 5, 15),
   (2025, 5, 5), (2026, 5, 24), (2027, 5, 13), (2028, 5, 2), (2029, 5, 20), (2030, 5, 9),
   (2031, 5, 28), (2032, 5, 16), (2033, 5, 6), (2034, 4, 26), (2035, 5, 15), (2036, 5, 3),
   (2037, 5, 22), (2038, 5, 11), (2039, 4, 30), (2040, 5, 18), (2041, 5, 7), (2042, 5, 26),
   (2043, 5, 16), (2044, 5, 5), (2045, 5, 24), (2046, 5, 13), (2047, 5, 2), (2048, 5, 20),
   (2049, 5, 9)]

/-- The dragon boat festival (`lunisolar_holidays.py` lines 325-418). -/
def dragonBoat : List (Int × Int × Int) :=
  [(1960, 5, 29), (1961, 6, 17), (1962, 6, 6), (1963, 6, 25), (1964, 6, 14), (1965, 6, 4),
   (1966, 6, 23), (1967, 6, 12), (1968, 5, 31), (1969, 6, 19), (1970, 6, 8), (1971, 5, 28),
   (1972, 6, 15), (1973, 6, 5), (1974, 6, 24), (1975, 6, 14), (1976, 6, 2), (1977, 6, 21),
   (1978, 6, 10), (1979, 5, 30), (1980, 6, 17), (1981, 6, 6), (1982, 6, 25), (1983, 6, 15),
   (1984, 6, 4), (1985, 6, 22), (1986, 6, 11), (1987, 6, 1), (1988, 6, 18), (1989, 6, 8),
   (1990, 5, 28), (1991, 6, 16), (1992, 6, 5), (1993, 6, 24), (1994, 6, 13), (1995, 6, 2),
   (1996, 6, 20), (1997, 6, 9), (1998, 5, 30), (1999, 6, 18), (2000, 6, 6), (2001, 6, 25),
   (2002, 6, 15), (2003, 6, 4), (2004, 6, 22), (2005, 6, 11), (2006, 5, 31), (2007, 6, 19),
   (2008, 6, 8), (2009, 5, 28), (2010, 6, 16), (2011, 6, 6), (2012, 6, 23), (2013, 6, 12),
   (2014, 6, 2), (2015, 6, 20), (2016, 6, 9), (2017, 5, 30), (2018, 6, 18), (2019, 6, 7),
   (2020, 6, 25), (2021, 6, 14), (2022, 6, 3), (2023, 6, 22), (2024, 6, 10), (2025, 5, 31),
   (2026, 6, 19), (2027, 6, 9), (2028, 5, 28), (2029, 6, 16), (2030, 6, 5), (2031, 6, 24),
   (2032, 6, 12), (2033, 6, 1), (2034, 5, 22), (2035, 6, 10), (2036, 5, 30), (2037, 6, 18),
   (2038, 6, 7), (2039, 5, 27), (2040, 6, 14), (2041, 6, 3), (2042, 6, 22), (2043, 6, 11),
   (2044, 5, 31), (2045, 6, 19), (2046, 6, 8), (2047, 5, 29), (2048, 6, 15), (2049, 6, 4)]

/-- The mid-autumn festival (`lunisolar_holidays.py` lines 427-520). -/
def midAutumn : List (Int × Int × Int) :=
  [(1960, 10, 5), (1961, 9, 24), (1962, 9, 13), (1963, 10, 2), (1964, 9, 20), (1965, 9, 10),
   (1966, 9, 29), (1967, 9, 18), (1968, 10, 6), (1969, 9, 26), (1970, 9, 15), (1971, 10, 3),
   (1972, 9, 22), (1973, 9, 11), (1974, 9, 30), (1975, 9, 20), (1976, 9, 8), (1977, 9, 27),
   (1978, 9, 17), (1979, 10, 5), (1980, 9, 23), (1981, 9, 12), (1982, 10, 1), (1983, 9, 21),
   (1984, 9, 10), (1985, 9, 29), (1986, 9, 18), (1987, 10, 7), (1988, 9, 25), (1989, 9, 14),
   (1990, 10, 3), (1991, 9, 22), (1992, 9, 11), (1993, 9, 30), (1994, 9, 20), (1995, 9, 9),
   (1996, 9, 27), (1997, 9, 16), (1998, 10, 5), (1999, 9, 24), (2000, 9, 12), (2001, 10, 1),
   (2002, 9, 21), (2003, 9, 11), (2004, 9, 28), (2005, 9, 18), (2006, 10, 6), (2007, 9, 25),
   (2008, 9, 14), (2009, 10, 3), (2010, 9, 22), (2011, 9, 12), (2012, 9, 30), (2013, 9, 19),
   (2014, 9, 8), (2015, 9, 27), (2016, 9, 15), (2017, 10, 4), (2018, 9, 24), (2019, 9, 13),
   (2020, 10, 1), (2021, 9, 21), (2022, 9, 10), (2023, 9, 29), (2024, 9, 17), (2025, 10, 6),
   (2026, 9, 25), (2027, 9, 15), (2028, 10, 3), (2029, 9, 22), (2030, 9, 12), (2031, 10, 1),
   (2032, 9, 19), (2033, 9, 8), (2034, 8, 28), (2035, 9, 16), (2036, 10, 4), (2037, 9, 24),
   (2038, 9, 13), (2039, 10, 2), (2040, 9, 20), (2041, 9, 10), (2042, 9, 28), (2043, 9, 17),
   (2044, 10, 5), (2045, 9, 25), (2046, 9, 15), (2047, 10, 4), (2048, 9, 22), (2049, 9, 11)]

/-- The double ninth festival (`lunisolar_holidays.py` lines 527-621). -/
def doubleNinth : List (Int × Int × Int) :=
  [(1959, 10, 10), (1960, 10, 28), (1961, 10, 18), (1962, 10, 7), (1963, 10, 25), (1964, 10, 14),
   (1965, 10, 3), (1966, 10, 22), (1967, 10, 12), (1968, 10, 30), (1969, 10, 19), (1970, 10, 8),
   (1971, 10, 27), (1972, 10, 15), (1973, 10, 4), (1974, 10, 23), (1975, 10, 13), (1976, 10, 31),
   (1977, 10, 21), (1978, 10, 10), (1979, 10, 29), (1980, 10, 17), (1981, 10, 6), (1982, 10, 25),
   (1983, 10, 14), (1984, 10, 3), (1985, 10, 22), (1986, 10, 12), (1987, 10, 31), (1988, 10, 19),
   (1989, 10, 8), (1990, 10, 26), (1991, 10, 16), (1992, 10, 4), (1993, 10, 23), (1994, 10, 13),
   (1995, 11, 1), (1996, 10, 20), (1997, 10, 10), (1998, 10, 28), (1999, 10, 17), (2000, 10, 6),
   (2001, 10, 25), (2002, 10, 14), (2003, 10, 4), (2004, 10, 22), (2005, 10, 11), (2006, 10, 30),
   (2007, 10, 19), (2008, 10, 7), (2009, 10, 26), (2010, 10, 16), (2011, 10, 5), (2012, 10, 23),
   (2013, 10, 13), (2014, 10, 2), (2015, 10, 21), (2016, 10, 9), (2017, 10, 28), (2018, 10, 17),
   (2019, 10, 7), (2020, 10, 25), (2021, 10, 14), (2022, 10, 4), (2023, 10, 23), (2024, 10, 11),
   (2025, 10, 29), (2026, 10, 18), (2027, 10, 8), (2028, 10, 26), (2029, 10, 16), (2030, 10, 5),
   (2031, 10, 24), (2032, 10, 12), (2033, 10, 1), (2034, 9, 21), (2035, 10, 9), (2036, 10, 27),
   (2037, 10, 17), (2038, 10, 7), (2039, 10, 26), (2040, 10, 14), (2041, 10, 3), (2042, 10, 22),
   (2043, 10, 11), (2044, 10, 29), (2045, 10, 18), (2046, 10, 8), (2047, 10, 27), (2048, 10, 16),
   (2049, 10, 5)]

/-- Eid al-Fitr, Turkish reckoning (`common_holidays.py` lines 296-368). -/
def eidAlFitr : List (Int × Int × Int) :=
  [(1981, 8, 1), (1982, 7, 21), (1983, 7, 11), (1984, 6, 30), (1985, 6, 19), (1986, 6, 8),
   (1987, 5, 28), (1988, 5, 16), (1989, 5, 6), (1990, 4, 26), (1991, 4, 15), (1992, 4, 4),
   (1993, 3, 24), (1994, 3, 13), (1995, 3, 2), (1996, 2, 19), (1997, 2, 8), (1998, 1, 29),
   (1999, 1, 18), (2000, 1, 8), (2000, 12, 27), (2001, 12, 16), (2002, 12, 5), (2003, 11, 25),
   (2004, 11, 14), (2005, 11, 3), (2006, 10, 23), (2007, 10, 12), (2008, 9, 30), (2009, 9, 20),
   (2010, 9, 9), (2011, 8, 30), (2012, 8, 19), (2013, 8, 8), (2014, 7, 28), (2015, 7, 17),
   (2016, 7, 5), (2017, 6, 25), (2018, 6, 15), (2019, 6, 4), (2020, 5, 24), (2021, 5, 13),
   (2022, 5, 2), (2023, 4, 21), (2024, 4, 10), (2025, 3, 30), (2026, 3, 20), (2027, 3, 9),
   (2028, 2, 26), (2029, 2, 14), (2030, 2, 4), (2031, 1, 24), (2032, 1, 14), (2033, 1, 2),
   (2033, 12, 23), (2034, 12, 12), (2035, 12, 1), (2036, 11, 19), (2037, 11, 8), (2038, 10, 29),
   (2039, 10, 19), (2040, 10, 7), (2041, 9, 26), (2042, 9, 15), (2043, 9, 4), (2044, 8, 24),
   (2045, 8, 14), (2046, 8, 3), (2047, 7, 24), (2048, 7, 12), (2049, 7, 1)]

/-- Eid al-Adha, Turkish reckoning (`common_holidays.py` lines 374-446). -/
def eidAlAdha : List (Int × Int × Int) :=
  [(1981, 10, 8), (1982, 9, 27), (1983, 9, 17), (1984, 9, 5), (1985, 8, 26), (1986, 8, 15),
   (1987, 8, 4), (1988, 7, 23), (1989, 7, 13), (1990, 7, 2), (1991, 6, 22), (1992, 6, 11),
   (1993, 5, 31), (1994, 5, 20), (1995, 5, 9), (1996, 4, 27), (1997, 4, 17), (1998, 4, 7),
   (1999, 3, 27), (2000, 3, 16), (2001, 3, 5), (2002, 2, 22), (2003, 2, 10), (2004, 2, 1),
   (2005, 1, 20), (2006, 1, 9), (2006, 12, 31), (2007, 12, 20), (2008, 12, 8), (2009, 11, 27),
   (2010, 11, 16), (2011, 11, 6), (2012, 10, 25), (2013, 10, 15), (2014, 10, 4), (2015, 9, 24),
   (2016, 9, 12), (2017, 9, 1), (2018, 8, 21), (2019, 8, 11), (2020, 7, 31), (2021, 7, 20),
   (2022, 7, 9), (2023, 6, 28), (2024, 6, 16), (2025, 6, 6), (2026, 5, 27), (2027, 5, 16),
   (2028, 5, 5), (2029, 4, 24), (2030, 4, 13), (2031, 4, 2), (2032, 3, 22), (2033, 3, 11),
   (2034, 3, 1), (2035, 2, 18), (2036, 2, 7), (2037, 1, 26), (2038, 1, 16), (2039, 1, 5),
   (2039, 12, 26), (2040, 12, 14), (2041, 12, 4), (2042, 11, 23), (2043, 11, 12), (2044, 10, 31),
   (2045, 10, 21), (2046, 10, 10), (2047, 9, 30), (2048, 9, 19), (2049, 9, 8)]

/-- Nuzul al-Qur'an in Malaysia (`xkls_holidays.py` lines 20-58). -/
def nuzulMalaysia : List (Int × Int × Int) :=
  [(2014, 7, 15), (2015, 7, 4), (2016, 6, 22), (2017, 6, 12), (2018, 6, 2), (2019, 5, 22),
   (2020, 5, 10), (2021, 4, 29), (2022, 4, 18), (2023, 4, 8), (2024, 3, 27), (2025, 3, 17),
   (2026, 3, 6), (2027, 2, 24), (2028, 2, 13), (2029, 2, 1), (2030, 1, 21), (2031, 1, 11),
   (2031, 12, 31), (2032, 12, 20), (2033, 12, 9), (2034, 11, 28), (2035, 11, 17), (2036, 11, 5),
   (2037, 10, 26), (2038, 10, 16), (2039, 10, 5), (2040, 9, 23), (2041, 9, 13), (2042, 9, 2),
   (2043, 8, 22), (2044, 8, 11), (2045, 7, 31), (2046, 7, 21), (2047, 7, 10), (2048, 6, 28),
   (2049, 6, 18)]

/-- Muharram in Malaysia (`xkls_holidays.py` lines 61-133). -/
def muharramMalaysia : List (Int × Int × Int) :=
  [(1980, 11, 9), (1981, 10, 28), (1982, 10, 18), (1983, 10, 7), (1984, 9, 26), (1985, 9, 15),
   (1986, 9, 5), (1987, 8, 25), (1988, 8, 13), (1989, 8, 2), (1990, 7, 23), (1991, 7, 12),
   (1992, 7, 1), (1993, 6, 21), (1994, 6, 10), (1995, 5, 30), (1996, 5, 18), (1997, 5, 7),
   (1998, 4, 27), (1999, 4, 17), (2000, 4, 6), (2001, 3, 26), (2002, 3, 15), (2003, 3, 4),
   (2004, 2, 22), (2005, 2, 11), (2006, 2, 1), (2007, 1, 20), (2008, 1, 10), (2008, 12, 29),
   (2009, 12, 18), (2010, 12, 7), (2011, 11, 27), (2012, 11, 15), (2013, 11, 5), (2014, 10, 25),
   (2015, 10, 14), (2016, 10, 2), (2017, 9, 22), (2018, 9, 11), (2019, 9, 1), (2020, 8, 20),
   (2021, 8, 9), (2022, 7, 30), (2023, 7, 19), (2024, 7, 7), (2025, 6, 26), (2026, 6, 16),
   (2027, 6, 6), (2028, 5, 25), (2029, 5, 14), (2030, 5, 3), (2031, 4, 23), (2032, 4, 11),
   (2033, 4, 1), (2034, 3, 21), (2035, 3, 11), (2036, 2, 28), (2037, 2, 16), (2038, 2, 5),
   (2039, 1, 26), (2040, 1, 15), (2041, 1, 4), (2041, 12, 24), (2042, 12, 14), (2043, 12, 3),
   (2044, 11, 21), (2045, 11, 10), (2046, 10, 31), (2047, 10, 20), (2048, 10, 9)]

/-- Muhammad's birthday in Malaysia (`xkls_holidays.py` lines 137-208). -/
def mawlidMalaysia : List (Int × Int × Int) :=
  [(1981, 1, 18), (1982, 1, 7), (1982, 12, 27), (1983, 12, 16), (1984, 12, 4), (1985, 11, 24),
   (1986, 11, 14), (1987, 11, 3), (1988, 10, 22), (1989, 10, 11), (1990, 10, 1), (1991, 9, 20),
   (1992, 9, 9), (1993, 8, 29), (1994, 8, 19), (1995, 8, 8), (1996, 7, 27), (1997, 7, 16),
   (1998, 7, 6), (1999, 6, 26), (2000, 6, 14), (2001, 6, 4), (2002, 5, 27), (2003, 5, 14),
   (2004, 5, 3), (2005, 4, 21), (2006, 4, 11), (2007, 3, 31), (2008, 3, 20), (2009, 3, 9),
   (2010, 2, 26), (2011, 2, 15), (2012, 2, 6), (2013, 1, 24), (2014, 1, 14), (2015, 12, 24),
   (2016, 12, 11), (2017, 12, 1), (2018, 11, 20), (2019, 11, 9), (2020, 10, 29), (2021, 10, 18),
   (2022, 10, 8), (2023, 9, 27), (2024, 9, 15), (2025, 9, 4), (2026, 8, 25), (2027, 8, 14),
   (2028, 8, 3), (2029, 7, 24), (2030, 7, 13), (2031, 7, 2), (2032, 6, 20), (2033, 6, 9),
   (2034, 5, 30), (2035, 5, 20), (2036, 5, 8), (2037, 4, 28), (2038, 4, 17), (2039, 4, 6),
   (2040, 3, 25), (2041, 3, 15), (2042, 3, 4), (2043, 2, 22), (2044, 2, 11), (2045, 1, 30),
   (2046, 1, 19), (2047, 1, 8), (2047, 12, 29), (2048, 12, 18)]

/-- Eid al-Fitr in Malaysia (`xkls_holidays.py` lines 211-283). -/
def eidAlFitrMalaysia : List (Int × Int × Int) :=
  [(1981, 8, 1), (1982, 7, 21), (1983, 7, 11), (1984, 6, 30), (1985, 6, 19), (1986, 6, 8),
   (1987, 5, 28), (1988, 5, 16), (1989, 5, 6), (1990, 4, 26), (1991, 4, 15), (1992, 4, 4),
   (1993, 3, 24), (1994, 3, 13), (1995, 3, 2), (1996, 2, 19), (1997, 2, 8), (1998, 1, 29),
   (1999, 1, 18), (2000, 1, 8), (2000, 12, 27), (2001, 12, 16), (2002, 12, 5), (2003, 11, 25),
   (2004, 11, 14), (2005, 11, 3), (2006, 10, 23), (2007, 10, 13), (2008, 10, 1), (2009, 9, 20),
   (2010, 9, 10), (2011, 8, 30), (2012, 8, 19), (2013, 8, 8), (2014, 7, 28), (2015, 7, 17),
   (2016, 7, 6), (2017, 6, 25), (2018, 6, 15), (2019, 6, 5), (2020, 5, 24), (2021, 5, 13),
   (2022, 5, 2), (2023, 4, 21), (2024, 4, 10), (2025, 3, 30), (2026, 3, 20), (2027, 3, 9),
   (2028, 2, 26), (2029, 2, 14), (2030, 2, 4), (2031, 1, 24), (2032, 1, 14), (2033, 1, 2),
   (2033, 12, 23), (2034, 12, 12), (2035, 12, 1), (2036, 11, 19), (2037, 11, 8), (2038, 10, 29),
   (2039, 10, 19), (2040, 10, 7), (2041, 9, 26), (2042, 9, 15), (2043, 9, 4), (2044, 8, 24),
   (2045, 8, 14), (2046, 8, 3), (2047, 7, 24), (2048, 7, 12), (2049, 7, 1)]

/-- Eid al-Adha in Malaysia (`xkls_holidays.py` lines 286-358). -/
def eidAlAdhaMalaysia : List (Int × Int × Int) :=
  [(1981, 10, 8), (1982, 9, 27), (1983, 9, 17), (1984, 9, 5), (1985, 8, 26), (1986, 8, 15),
   (1987, 8, 4), (1988, 7, 23), (1989, 7, 13), (1990, 7, 2), (1991, 6, 22), (1992, 6, 11),
   (1993, 5, 31), (1994, 5, 20), (1995, 5, 9), (1996, 4, 27), (1997, 4, 17), (1998, 4, 7),
   (1999, 3, 27), (2000, 3, 16), (2001, 3, 5), (2002, 2, 23), (2003, 2, 12), (2004, 2, 3),
   (2005, 1, 21), (2006, 1, 10), (2007, 1, 2), (2007, 12, 20), (2008, 12, 8), (2009, 11, 27),
   (2010, 11, 17), (2011, 11, 6), (2012, 10, 26), (2013, 10, 15), (2014, 10, 5), (2015, 9, 24),
   (2016, 9, 12), (2017, 9, 1), (2018, 8, 22), (2019, 8, 11), (2020, 7, 31), (2021, 7, 20),
   (2022, 7, 9), (2023, 6, 28), (2024, 6, 16), (2025, 6, 6), (2026, 5, 27), (2027, 5, 16),
   (2028, 5, 5), (2029, 4, 24), (2030, 4, 13), (2031, 4, 2), (2032, 3, 22), (2033, 3, 11),
   (2034, 3, 1), (2035, 2, 18), (2036, 2, 7), (2037, 1, 26), (2038, 1, 16), (2039, 1, 5),
   (2039, 12, 26), (2040, 12, 14), (2041, 12, 4), (2042, 11, 23), (2043, 11, 12), (2044, 10, 31),
   (2045, 10, 21), (2046, 10, 10), (2047, 9, 30), (2048, 9, 19), (2049, 9, 8)]

/-- Deepavali in Malaysia (`xkls_holidays.py` lines 361-377). -/
def deepavaliMalaysia : List (Int × Int × Int) :=
  [(2002, 11, 4), (2003, 10, 24), (2004, 11, 11), (2004, 11, 12), (2005, 11, 1), (2007, 11, 8),
   (2008, 10, 27), (2010, 11, 5), (2011, 10, 26), (2012, 11, 13), (2014, 10, 22), (2015, 11, 10),
   (2017, 10, 18), (2018, 11, 6), (2019, 10, 28)]

/-- Thaipusam in Malaysia (`xkls_holidays.py` lines 380-393). -/
def thaipusamMalaysia : List (Int × Int × Int) :=
  [(2008, 1, 23), (2009, 2, 9), (2010, 1, 30), (2011, 1, 20), (2012, 2, 7), (2013, 1, 28),
   (2014, 1, 17), (2015, 2, 3), (2016, 1, 25), (2017, 2, 9), (2018, 1, 31), (2019, 1, 21)]

/-- Wesak in Malaysia (`xkls_holidays.py` lines 396-412). -/
def wesakMalaysia : List (Int × Int × Int) :=
  [(2003, 5, 15), (2004, 5, 4), (2005, 5, 23), (2006, 5, 12), (2007, 5, 2), (2008, 5, 19),
   (2010, 5, 28), (2011, 5, 17), (2013, 5, 24), (2014, 5, 13), (2015, 5, 4), (2017, 5, 10),
   (2018, 5, 29), (2019, 5, 20), (2020, 5, 7)]

/-- Single closures of Kuala Lumpur (`xkls_holidays.py` lines 414-437). -/
def kualaLumpurClosures : List (Int × Int × Int) :=
  [(2019, 9, 9), (2019, 7, 30), (2018, 9, 10), (2018, 5, 11), (2018, 5, 10), (2018, 5, 9),
   (2017, 9, 4), (2017, 4, 24), (2014, 2, 3), (2012, 4, 11), (2011, 9, 1), (2010, 12, 31),
   (2008, 7, 3), (2007, 4, 26), (2006, 10, 25), (2006, 2, 2), (2004, 1, 21), (2003, 11, 24),
   (2003, 2, 4), (2003, 1, 31), (2002, 4, 25), (2002, 2, 11)]

/-- Bridge days at New Year in Bangkok (`xbkk_holidays.py` lines 146-152). -/
def newYearBridgesThailand : List (Int × Int × Int) :=
  [(2002, 12, 30), (2004, 1, 2), (2009, 1, 2), (2013, 12, 30), (2015, 1, 2)]

/-- Bridge days at Asanha Bucha in Bangkok (`xbkk_holidays.py` lines 154-157). -/
def asanhaBuchaBridgesThailand : List (Int × Int × Int) :=
  [(2009, 7, 6), (2016, 7, 18)]

/-- Bridge days at the queen's birthday in Bangkok (`xbkk_holidays.py` lines 159-162). -/
def queensBirthdayBridgesThailand : List (Int × Int × Int) :=
  [(2010, 8, 13), (2014, 8, 11)]

/-- Bridge days at coronation day in Bangkok (`xbkk_holidays.py` lines 164-167). -/
def coronationBridgesThailand : List (Int × Int × Int) :=
  [(2015, 5, 4), (2016, 5, 6)]

/-- Bridge days at Vesak in Bangkok (`xbkk_holidays.py` lines 169-171). -/
def vesakBridgesThailand : List (Int × Int × Int) :=
  [(2011, 5, 16)]

/-- Single closures of Bangkok (`xbkk_holidays.py` lines 173-183). -/
def bangkokClosures : List (Int × Int × Int) :=
  [(2006, 4, 19), (2006, 6, 12), (2006, 6, 13), (2006, 9, 20), (2007, 12, 24), (2010, 5, 20),
   (2010, 5, 21), (2012, 4, 9), (2017, 10, 26)]

/-- Makha Bucha in Thailand (`xbkk_holidays.py` lines 191-232). -/
def makhaBucha : List (Int × Int × Int) :=
  [(1981, 2, 18), (1982, 2, 8), (1983, 2, 27), (1984, 2, 16), (1985, 3, 6), (1986, 2, 24),
   (1987, 2, 13), (1988, 3, 3), (1989, 2, 20), (1990, 2, 9), (1991, 2, 28), (1992, 2, 18),
   (1993, 3, 8), (1994, 2, 25), (1995, 2, 15), (1996, 3, 5), (1997, 2, 22), (1998, 2, 11),
   (1999, 3, 2), (2000, 2, 19), (2001, 2, 8), (2002, 2, 26), (2003, 2, 17), (2004, 3, 5),
   (2005, 2, 23), (2006, 2, 13), (2007, 3, 5), (2008, 2, 21), (2009, 2, 9), (2010, 3, 1),
   (2011, 2, 18), (2012, 3, 7), (2013, 2, 25), (2014, 2, 14), (2015, 3, 4), (2016, 2, 22),
   (2017, 2, 13), (2018, 3, 1), (2019, 2, 19), (2020, 2, 10)]

/-- Vesak in Thailand (`xbkk_holidays.py` lines 236-277). -/
def vesakThailand : List (Int × Int × Int) :=
  [(1981, 5, 18), (1982, 5, 7), (1983, 5, 26), (1984, 5, 15), (1985, 6, 2), (1986, 5, 23),
   (1987, 5, 13), (1988, 5, 31), (1989, 5, 20), (1990, 5, 9), (1991, 5, 28), (1992, 5, 16),
   (1993, 6, 4), (1994, 5, 24), (1995, 5, 14), (1996, 6, 1), (1997, 5, 22), (1998, 5, 11),
   (1999, 5, 30), (2000, 5, 18), (2001, 5, 7), (2002, 5, 27), (2003, 5, 15), (2004, 6, 2),
   (2005, 5, 23), (2006, 5, 12), (2007, 5, 31), (2008, 5, 19), (2009, 5, 8), (2010, 5, 28),
   (2011, 5, 17), (2012, 6, 4), (2013, 5, 24), (2014, 5, 13), (2015, 6, 1), (2016, 5, 20),
   (2017, 5, 10), (2018, 5, 29), (2019, 5, 20), (2020, 5, 6)]

/-- Asanha Bucha in Thailand (`xbkk_holidays.py` lines 281-322). -/
def asanhaBucha : List (Int × Int × Int) :=
  [(1981, 7, 17), (1982, 7, 6), (1983, 7, 24), (1984, 7, 12), (1985, 7, 31), (1986, 7, 21),
   (1987, 7, 10), (1988, 7, 28), (1989, 7, 18), (1990, 7, 7), (1991, 7, 26), (1992, 7, 14),
   (1993, 8, 2), (1994, 7, 22), (1995, 7, 12), (1996, 7, 30), (1997, 7, 19), (1998, 7, 9),
   (1999, 7, 28), (2000, 7, 16), (2001, 7, 5), (2002, 7, 25), (2003, 7, 14), (2004, 8, 2),
   (2005, 7, 22), (2006, 7, 11), (2007, 7, 30), (2008, 7, 17), (2009, 7, 7), (2010, 7, 26),
   (2011, 7, 15), (2012, 8, 2), (2013, 7, 22), (2014, 7, 11), (2015, 7, 30), (2016, 7, 19),
   (2017, 7, 10), (2018, 7, 27), (2019, 7, 16), (2020, 7, 6)]

/-- Common leave in Indonesia (`exchange_calendar_xidx.py` lines 118-160). -/
def commonLeaveIndonesia : List (Int × Int × Int) :=
  [(2002, 12, 30), (2005, 12, 30), (2009, 1, 2), (2017, 1, 2), (2008, 2, 8), (2003, 5, 30),
   (2006, 5, 26), (2007, 5, 18), (2003, 8, 18), (2006, 8, 18), (2008, 8, 18), (2002, 12, 24),
   (2002, 12, 26), (2003, 12, 24), (2003, 12, 26), (2004, 12, 24), (2005, 12, 26), (2007, 12, 24),
   (2009, 12, 24), (2010, 12, 24), (2011, 12, 26), (2012, 12, 24), (2013, 12, 26), (2014, 12, 26),
   (2016, 12, 26), (2017, 12, 26), (2018, 12, 24), (2019, 12, 24), (2020, 12, 24)]

/-- Islamic new year in Indonesia (`exchange_calendar_xidx.py` lines 162-182). -/
def islamicNewYearIndonesia : List (Int × Int × Int) :=
  [(2002, 3, 15), (2003, 3, 3), (2004, 2, 23), (2005, 2, 10), (2006, 1, 31), (2008, 1, 10),
   (2008, 1, 11), (2008, 12, 29), (2009, 12, 18), (2010, 12, 7), (2012, 11, 15), (2012, 11, 16),
   (2013, 11, 5), (2015, 10, 14), (2017, 9, 21), (2018, 9, 11), (2020, 8, 20)]

/-- Eid al-Fitr in Indonesia (`exchange_calendar_xidx.py` lines 184-294). -/
def eidAlFitrIndonesia : List (Int × Int × Int) :=
  [(2002, 12, 5), (2002, 12, 6), (2002, 12, 9), (2002, 12, 10), (2003, 11, 24), (2003, 11, 25),
   (2003, 11, 26), (2003, 11, 27), (2003, 11, 28), (2004, 11, 15), (2004, 11, 16), (2004, 11, 17),
   (2004, 11, 18), (2004, 11, 19), (2005, 11, 2), (2005, 11, 3), (2005, 11, 4), (2005, 11, 7),
   (2005, 11, 8), (2006, 10, 23), (2006, 10, 24), (2006, 10, 25), (2006, 10, 26), (2006, 10, 27),
   (2007, 10, 12), (2007, 10, 15), (2007, 10, 16), (2008, 9, 30), (2008, 10, 1), (2008, 10, 2),
   (2008, 10, 3), (2009, 9, 18), (2009, 9, 21), (2009, 9, 22), (2009, 9, 23), (2010, 9, 8),
   (2010, 9, 9), (2010, 9, 10), (2010, 9, 13), (2010, 9, 14), (2011, 8, 29), (2011, 8, 30),
   (2011, 8, 31), (2011, 9, 1), (2011, 9, 2), (2012, 8, 20), (2012, 8, 21), (2012, 8, 22),
   (2013, 8, 5), (2013, 8, 6), (2013, 8, 7), (2013, 8, 8), (2013, 8, 9), (2014, 7, 28),
   (2014, 7, 29), (2014, 7, 30), (2014, 7, 31), (2014, 8, 1), (2015, 7, 16), (2015, 7, 17),
   (2015, 7, 20), (2015, 7, 21), (2016, 7, 4), (2016, 7, 5), (2016, 7, 6), (2016, 7, 7),
   (2016, 7, 8), (2017, 6, 23), (2017, 6, 26), (2017, 6, 27), (2017, 6, 28), (2017, 6, 29),
   (2017, 6, 30), (2018, 6, 11), (2018, 6, 12), (2018, 6, 13), (2018, 6, 14), (2018, 6, 15),
   (2018, 6, 18), (2018, 6, 19), (2019, 6, 3), (2019, 6, 4), (2019, 6, 5), (2019, 6, 6),
   (2019, 6, 7), (2020, 5, 22), (2020, 5, 25), (2020, 5, 26), (2020, 5, 27)]

/-- Eid al-Adha in Indonesia (`exchange_calendar_xidx.py` lines 296-322). -/
def eidAlAdhaIndonesia : List (Int × Int × Int) :=
  [(2002, 2, 22), (2003, 2, 12), (2004, 2, 2), (2005, 1, 21), (2006, 1, 10), (2006, 12, 29),
   (2007, 12, 20), (2007, 12, 21), (2008, 12, 8), (2009, 11, 27), (2009, 11, 28), (2010, 11, 17),
   (2012, 10, 26), (2013, 10, 14), (2013, 10, 15), (2015, 9, 24), (2016, 9, 12), (2017, 9, 1),
   (2018, 8, 22), (2020, 7, 31)]

/-- Isra Mi'raj in Indonesia (`exchange_calendar_xidx.py` lines 324-350). -/
def israMirajIndonesia : List (Int × Int × Int) :=
  [(2002, 10, 4), (2003, 9, 22), (2004, 9, 13), (2005, 9, 2), (2006, 8, 21), (2008, 7, 30),
   (2009, 7, 20), (2011, 6, 29), (2012, 5, 18), (2013, 6, 6), (2014, 5, 27), (2016, 5, 6),
   (2017, 4, 24), (2019, 4, 3)]

/-- Muhammad's birthday in Indonesia (`exchange_calendar_xidx.py` lines 352-370). -/
def mawlidIndonesia : List (Int × Int × Int) :=
  [(2003, 5, 15), (2004, 5, 3), (2005, 4, 22), (2006, 4, 10), (2008, 3, 20), (2009, 3, 9),
   (2010, 2, 26), (2011, 2, 15), (2013, 1, 24), (2014, 1, 14), (2015, 12, 24), (2016, 12, 12),
   (2017, 12, 1), (2018, 11, 20), (2020, 10, 29)]

/-- Vesak in Indonesia (`exchange_calendar_xidx.py` lines 372-388). -/
def vesakIndonesia : List (Int × Int × Int) :=
  [(2003, 5, 16), (2004, 6, 3), (2005, 5, 24), (2007, 6, 1), (2008, 5, 20), (2010, 5, 28),
   (2011, 5, 17), (2014, 5, 15), (2015, 6, 2), (2017, 5, 11), (2018, 5, 29), (2020, 5, 7)]

/-- Hindu new year in Indonesia (`exchange_calendar_xidx.py` lines 390-409). -/
def nyepiIndonesia : List (Int × Int × Int) :=
  [(2003, 4, 2), (2004, 3, 22), (2005, 3, 11), (2006, 3, 30), (2006, 3, 31), (2007, 3, 19),
   (2008, 3, 7), (2009, 3, 26), (2010, 3, 16), (2012, 3, 23), (2013, 3, 12), (2014, 3, 31),
   (2016, 3, 9), (2017, 3, 28), (2019, 3, 7), (2020, 3, 25)]

/-- Trading suspensions in Jakarta (`exchange_calendar_xidx.py` lines 411-415). -/
def suspensionsJakarta : List (Int × Int × Int) :=
  [(2008, 10, 9), (2008, 10, 10)]

/-- Elections in Indonesia (`exchange_calendar_xidx.py` lines 417-430). -/
def electionsIndonesia : List (Int × Int × Int) :=
  [(2004, 4, 5), (2004, 7, 5), (2004, 9, 20), (2009, 4, 9), (2009, 7, 8), (2014, 4, 9),
   (2014, 7, 9), (2015, 12, 9), (2017, 2, 15), (2017, 4, 19), (2019, 4, 17)]

/-- Jumu'ah tul-Wida in Pakistan (`exchange_calendar_xkar.py` lines 107-128). -/
def jumaTulWidaPakistan : List (Int × Int × Int) :=
  [(2002, 12, 6), (2004, 11, 11), (2005, 10, 28), (2006, 10, 20), (2007, 10, 12), (2008, 9, 26),
   (2010, 9, 10), (2011, 8, 26), (2012, 8, 17), (2013, 8, 2), (2014, 7, 25), (2015, 7, 17),
   (2016, 7, 1), (2017, 6, 23), (2018, 6, 8), (2019, 5, 31), (2020, 5, 22)]

/-- Eid al-Fitr in Pakistan (`exchange_calendar_xkar.py` lines 130-203). -/
def eidAlFitrPakistan : List (Int × Int × Int) :=
  [(2002, 12, 3), (2002, 12, 5), (2003, 11, 26), (2003, 11, 27), (2003, 11, 28), (2004, 11, 15),
   (2004, 11, 16), (2004, 11, 17), (2005, 11, 3), (2005, 11, 4), (2006, 10, 23), (2006, 10, 24),
   (2006, 10, 25), (2007, 10, 10), (2007, 10, 15), (2007, 10, 16), (2008, 10, 1), (2008, 10, 2),
   (2008, 10, 3), (2009, 9, 21), (2009, 9, 22), (2009, 9, 23), (2010, 9, 13), (2011, 8, 31),
   (2011, 9, 1), (2011, 9, 2), (2012, 8, 20), (2012, 8, 21), (2012, 8, 22), (2013, 8, 8),
   (2013, 8, 9), (2014, 7, 29), (2014, 7, 30), (2014, 7, 31), (2014, 8, 1), (2015, 7, 20),
   (2015, 7, 21), (2016, 7, 5), (2016, 7, 6), (2016, 7, 7), (2016, 7, 8), (2017, 6, 26),
   (2017, 6, 27), (2017, 6, 28), (2018, 6, 15), (2018, 6, 18), (2019, 6, 4), (2019, 6, 5),
   (2019, 6, 6), (2019, 6, 7), (2020, 5, 25), (2020, 5, 26), (2020, 5, 27)]

/-- Eid al-Adha in Pakistan (`exchange_calendar_xkar.py` lines 205-279). -/
def eidAlAdhaPakistan : List (Int × Int × Int) :=
  [(2002, 2, 25), (2003, 2, 11), (2003, 2, 12), (2003, 2, 13), (2003, 2, 14), (2004, 2, 2),
   (2004, 2, 3), (2004, 2, 4), (2005, 1, 20), (2005, 1, 21), (2006, 1, 10), (2006, 1, 11),
   (2006, 1, 12), (2006, 1, 13), (2007, 1, 1), (2007, 1, 2), (2007, 12, 20), (2007, 12, 21),
   (2008, 12, 8), (2008, 12, 9), (2008, 12, 10), (2008, 12, 11), (2009, 11, 27), (2009, 11, 30),
   (2010, 11, 17), (2010, 11, 18), (2010, 11, 19), (2011, 11, 7), (2011, 11, 8), (2012, 10, 26),
   (2013, 10, 15), (2013, 10, 16), (2013, 10, 17), (2013, 10, 18), (2014, 10, 6), (2014, 10, 7),
   (2014, 10, 8), (2015, 9, 24), (2015, 9, 25), (2016, 9, 12), (2016, 9, 13), (2016, 9, 14),
   (2017, 9, 1), (2017, 9, 4), (2018, 8, 21), (2018, 8, 22), (2018, 8, 23), (2019, 8, 12),
   (2019, 8, 13), (2019, 8, 15), (2020, 7, 31)]

/-- Ashura in Pakistan (`exchange_calendar_xkar.py` lines 281-320). -/
def ashuraPakistan : List (Int × Int × Int) :=
  [(2002, 3, 25), (2003, 3, 13), (2003, 3, 14), (2004, 3, 1), (2004, 3, 2), (2006, 2, 8),
   (2006, 2, 9), (2009, 1, 7), (2009, 1, 8), (2009, 12, 28), (2010, 12, 16), (2010, 12, 17),
   (2011, 12, 5), (2011, 12, 6), (2013, 11, 14), (2013, 11, 15), (2014, 11, 3), (2014, 11, 4),
   (2015, 10, 23), (2016, 10, 11), (2016, 10, 12), (2018, 9, 20), (2018, 9, 21), (2019, 9, 9),
   (2019, 9, 10)]

/-- Muhammad's birthday in Pakistan (`exchange_calendar_xkar.py` lines 322-339). -/
def mawlidPakistan : List (Int × Int × Int) :=
  [(2002, 5, 23), (2003, 5, 15), (2005, 4, 22), (2006, 4, 11), (2008, 3, 21), (2009, 3, 10),
   (2011, 2, 16), (2013, 1, 25), (2014, 1, 14), (2015, 12, 24), (2016, 12, 12), (2017, 12, 1),
   (2018, 11, 21), (2020, 10, 30)]

/-- New Year's days on which Karachi closed (`exchange_calendar_xkar.py` lines 341-365). -/
def newYearPakistan : List (Int × Int × Int) :=
  [(2002, 1, 1), (2004, 1, 1), (2010, 1, 1)]

/-- Single closures of Karachi (`exchange_calendar_xkar.py` lines 367-395). -/
def karachiClosures : List (Int × Int × Int) :=
  [(2002, 2, 22), (2002, 10, 10), (2003, 4, 10), (2004, 5, 3), (2005, 8, 18), (2005, 11, 1),
   (2006, 4, 12), (2006, 10, 26), (2006, 10, 27), (2007, 1, 29), (2007, 1, 30), (2007, 12, 28),
   (2008, 2, 18), (2011, 11, 11), (2011, 10, 24), (2012, 10, 29), (2012, 9, 21), (2018, 7, 25)]

/-- Eid al-Fitr in the Philippines (`exchange_calendar_xphs.py` lines 138-148). -/
def eidAlFitrPhilippines : List (Int × Int × Int) :=
  [(2011, 8, 30), (2012, 8, 20), (2013, 8, 9), (2014, 7, 29), (2015, 7, 17), (2016, 7, 6),
   (2017, 6, 26), (2018, 6, 15), (2019, 6, 5)]

/-- Eid al-Adha in the Philippines (`exchange_calendar_xphs.py` lines 154-164). -/
def eidAlAdhaPhilippines : List (Int × Int × Int) :=
  [(2011, 11, 7), (2012, 10, 26), (2013, 10, 15), (2014, 10, 6), (2015, 9, 25), (2016, 9, 12),
   (2017, 9, 1), (2018, 8, 21), (2019, 8, 12)]

/-- Single closures of Manila (`exchange_calendar_xphs.py` lines 232-268). -/
def manilaClosures : List (Int × Int × Int) :=
  [(2017, 4, 28), (2017, 10, 16), (2015, 11, 18), (2015, 11, 19), (2013, 8, 19), (2013, 8, 20),
   (2013, 10, 28), (2011, 6, 20), (2019, 5, 13), (2018, 5, 14), (2016, 5, 9), (2013, 5, 13),
   (2017, 9, 12), (2014, 12, 8), (2014, 9, 19), (2014, 7, 16), (2012, 8, 7), (2011, 9, 27),
   (2015, 1, 15), (2015, 1, 16), (2017, 12, 26), (2016, 12, 26), (2014, 12, 26), (2018, 1, 2),
   (2017, 1, 2), (2015, 1, 2), (2017, 10, 31), (2016, 10, 31), (2011, 10, 31)]

/-- Holidays in Manila until 2010 (`exchange_calendar_xphs.py` lines 275-416). -/
def manilaUntil2010 : List (Int × Int × Int) :=
  [(2002, 1, 1), (2002, 2, 25), (2002, 3, 28), (2002, 3, 29), (2002, 4, 8), (2002, 5, 1),
   (2002, 6, 12), (2002, 7, 15), (2002, 10, 31), (2002, 11, 1), (2002, 12, 6), (2002, 12, 24),
   (2002, 12, 25), (2002, 12, 30), (2002, 12, 31), (2003, 1, 1), (2003, 2, 25), (2003, 4, 7),
   (2003, 4, 17), (2003, 4, 18), (2003, 5, 1), (2003, 5, 2), (2003, 6, 13), (2003, 8, 22),
   (2003, 11, 26), (2003, 12, 24), (2003, 12, 25), (2003, 12, 26), (2003, 12, 31), (2004, 1, 1),
   (2004, 1, 2), (2004, 2, 25), (2004, 4, 7), (2004, 4, 8), (2004, 4, 9), (2004, 5, 10),
   (2004, 11, 1), (2004, 11, 15), (2004, 11, 29), (2004, 12, 3), (2004, 12, 24), (2004, 12, 27),
   (2004, 12, 30), (2004, 12, 31), (2005, 2, 25), (2005, 3, 23), (2005, 3, 24), (2005, 3, 25),
   (2005, 5, 2), (2005, 6, 13), (2005, 7, 25), (2005, 8, 29), (2005, 10, 31), (2005, 11, 1),
   (2005, 11, 4), (2005, 11, 28), (2005, 12, 26), (2005, 12, 30), (2006, 4, 13), (2006, 4, 14),
   (2006, 5, 1), (2006, 6, 12), (2006, 7, 24), (2006, 8, 21), (2006, 9, 28), (2006, 9, 29),
   (2006, 10, 24), (2006, 11, 1), (2006, 12, 1), (2006, 12, 25), (2006, 12, 26), (2007, 1, 1),
   (2007, 4, 5), (2007, 4, 6), (2007, 4, 9), (2007, 5, 1), (2007, 5, 14), (2007, 6, 11),
   (2007, 8, 20), (2007, 8, 27), (2007, 10, 12), (2007, 10, 29), (2007, 11, 1), (2007, 11, 2),
   (2007, 11, 30), (2007, 12, 24), (2007, 12, 25), (2007, 12, 31), (2008, 1, 1), (2008, 2, 25),
   (2008, 3, 20), (2008, 3, 21), (2008, 4, 7), (2008, 5, 1), (2008, 6, 9), (2008, 8, 18),
   (2008, 8, 25), (2008, 10, 1), (2008, 12, 1), (2008, 12, 25), (2008, 12, 26), (2008, 12, 29),
   (2008, 12, 30), (2008, 12, 31), (2009, 1, 1), (2009, 1, 2), (2009, 4, 6), (2009, 4, 9),
   (2009, 4, 10), (2009, 5, 1), (2009, 6, 12), (2009, 7, 17), (2009, 8, 5), (2009, 8, 21),
   (2009, 8, 31), (2009, 9, 7), (2009, 9, 21), (2009, 11, 2), (2009, 11, 30), (2009, 12, 24),
   (2009, 12, 25), (2009, 12, 30), (2009, 12, 31), (2010, 1, 1), (2010, 4, 1), (2010, 4, 2),
   (2010, 4, 9), (2010, 5, 3), (2010, 5, 10), (2010, 6, 14), (2010, 6, 30), (2010, 8, 30),
   (2010, 9, 10), (2010, 10, 25), (2010, 11, 1), (2010, 11, 16), (2010, 11, 29), (2010, 12, 24),
   (2010, 12, 27), (2010, 12, 31)]

/-- Single closures of Hong Kong (`exchange_calendar_xhkg.py` lines 151-235). -/
def hongKongClosures : List (Int × Int × Int) :=
  [(1970, 7, 1), (1971, 7, 1), (1973, 7, 2), (1974, 7, 1), (1975, 7, 1), (1976, 7, 1), (1977, 7, 1),
   (1979, 7, 2), (1980, 7, 1), (1981, 7, 1), (1982, 7, 1), (1971, 3, 22), (1971, 12, 6),
   (1971, 12, 20), (1975, 7, 28), (1985, 7, 29), (1970, 7, 16), (1970, 9, 14), (1971, 7, 22),
   (1971, 8, 31), (1973, 4, 16), (1973, 7, 17), (1974, 4, 25), (1975, 10, 14), (1978, 7, 26),
   (1978, 7, 27), (1979, 1, 26), (1979, 8, 2), (1980, 5, 21), (1980, 7, 22), (1981, 4, 27),
   (1981, 7, 6), (1981, 7, 7), (1981, 7, 29), (1983, 9, 9), (1985, 6, 24), (1986, 4, 1),
   (1986, 10, 22), (1987, 10, 20), (1987, 10, 21), (1987, 10, 22), (1987, 10, 23), (1988, 4, 5),
   (1991, 6, 18), (1992, 7, 22), (1993, 9, 17), (1994, 6, 14), (1997, 6, 30), (1997, 7, 2),
   (1997, 8, 18), (1997, 10, 2), (1998, 8, 17), (1998, 10, 2), (1999, 4, 6), (1999, 9, 16),
   (1999, 12, 31), (2001, 7, 6), (2001, 7, 25), (2008, 8, 6), (2008, 8, 22), (2010, 4, 6),
   (2011, 9, 29), (2012, 10, 2), (2013, 8, 14), (2015, 4, 7), (2015, 9, 3), (2016, 8, 2),
   (2016, 10, 21), (2017, 8, 23)]

/-- More days off at Chinese new year in Taiwan (`exchange_calendar_xtai.py` lines 195-224). -/
def newYearExtrasTaiwan : List (Int × Int × Int) :=
  [(2002, 2, 7), (2002, 2, 15), (2003, 1, 29), (2004, 1, 19), (2005, 2, 4), (2006, 2, 2),
   (2007, 2, 22), (2007, 2, 23), (2008, 2, 4), (2009, 1, 29), (2009, 1, 30), (2010, 2, 18),
   (2010, 2, 19), (2011, 1, 31), (2012, 1, 26), (2012, 1, 27), (2013, 2, 14), (2013, 2, 15),
   (2014, 1, 28), (2015, 2, 16), (2016, 2, 11), (2016, 2, 12), (2017, 1, 25), (2018, 2, 13),
   (2019, 1, 31), (2019, 2, 8), (2020, 1, 21), (2020, 1, 22)]

/-- Single closures of Taipei (`exchange_calendar_xtai.py` lines 227-235). -/
def taipeiClosures : List (Int × Int × Int) :=
  [(2020, 4, 2), (2016, 4, 5), (2012, 12, 31), (2012, 2, 27), (2009, 1, 2), (2006, 10, 9),
   (2005, 9, 1)]

/-- Typhoons in Taipei (`exchange_calendar_xtai.py` lines 237-258). -/
def taipeiTyphoons : List (Int × Int × Int) :=
  [(2019, 9, 30), (2019, 8, 9), (2016, 9, 28), (2016, 9, 27), (2016, 7, 8), (2015, 9, 29),
   (2015, 7, 10), (2014, 7, 23), (2013, 8, 21), (2012, 8, 2), (2009, 8, 7), (2008, 9, 29),
   (2008, 7, 28), (2007, 9, 18), (2005, 8, 5), (2005, 7, 18), (2004, 10, 25), (2004, 8, 25),
   (2004, 8, 24), (2002, 9, 6)]

/-- Single closures of Istanbul (`exchange_calendar_xist.py` lines 157-167). -/
def istanbulClosures : List (Int × Int × Int) :=
  [(2002, 1, 4), (2003, 2, 14), (2003, 11, 21), (2003, 11, 24), (2003, 11, 28), (2004, 1, 23),
   (2004, 12, 30), (2004, 12, 31), (2006, 1, 13)]

/-- Holidays in Mumbai (`exchange_calendar_xbom.py` lines 7-327). -/
def mumbaiHolidays : List (Int × Int × Int) :=
  [(1997, 1, 23), (1997, 3, 7), (1997, 3, 24), (1997, 4, 8), (1997, 4, 14), (1997, 4, 16),
   (1997, 4, 18), (1997, 5, 1), (1997, 5, 8), (1997, 8, 15), (1997, 8, 18), (1997, 8, 25),
   (1997, 10, 2), (1997, 10, 28), (1997, 10, 29), (1997, 10, 31), (1997, 12, 25), (1998, 4, 9),
   (1998, 4, 14), (1998, 4, 28), (1998, 12, 25), (1999, 1, 1), (1999, 1, 20), (1999, 1, 26),
   (1999, 3, 2), (1999, 3, 18), (1999, 3, 25), (1999, 3, 29), (1999, 4, 2), (1999, 4, 14),
   (1999, 4, 27), (1999, 4, 30), (1999, 9, 13), (1999, 10, 19), (1999, 11, 8), (1999, 11, 10),
   (1999, 11, 23), (1999, 12, 31), (2000, 1, 26), (2000, 3, 17), (2000, 3, 20), (2000, 4, 14),
   (2000, 4, 21), (2000, 5, 1), (2000, 8, 15), (2000, 9, 1), (2000, 10, 2), (2000, 12, 25),
   (2001, 1, 1), (2001, 1, 26), (2001, 3, 6), (2001, 4, 5), (2001, 4, 13), (2001, 5, 1),
   (2001, 8, 15), (2001, 8, 22), (2001, 10, 2), (2001, 10, 26), (2001, 11, 16), (2001, 11, 30),
   (2001, 12, 17), (2001, 12, 25), (2002, 3, 25), (2002, 3, 29), (2002, 5, 1), (2002, 8, 15),
   (2002, 9, 10), (2002, 10, 2), (2002, 10, 15), (2002, 11, 6), (2002, 11, 19), (2002, 12, 25),
   (2003, 2, 13), (2003, 3, 14), (2003, 3, 18), (2003, 4, 14), (2003, 4, 18), (2003, 5, 1),
   (2003, 8, 15), (2003, 10, 2), (2003, 11, 26), (2003, 12, 25), (2004, 1, 1), (2004, 1, 26),
   (2004, 2, 2), (2004, 3, 2), (2004, 4, 9), (2004, 4, 14), (2004, 4, 26), (2004, 10, 13),
   (2004, 10, 22), (2004, 11, 15), (2004, 11, 26), (2005, 1, 21), (2005, 1, 26), (2005, 3, 25),
   (2005, 4, 14), (2005, 7, 28), (2005, 8, 15), (2005, 9, 7), (2005, 10, 12), (2005, 11, 3),
   (2005, 11, 4), (2005, 11, 15), (2006, 1, 11), (2006, 1, 26), (2006, 2, 9), (2006, 3, 15),
   (2006, 4, 6), (2006, 4, 11), (2006, 4, 14), (2006, 5, 1), (2006, 8, 15), (2006, 10, 2),
   (2006, 10, 24), (2006, 10, 25), (2006, 12, 25), (2007, 1, 1), (2007, 1, 26), (2007, 1, 30),
   (2007, 2, 16), (2007, 3, 27), (2007, 4, 6), (2007, 5, 1), (2007, 5, 2), (2007, 8, 15),
   (2007, 10, 2), (2007, 12, 21), (2007, 12, 25), (2008, 3, 6), (2008, 3, 20), (2008, 3, 21),
   (2008, 4, 14), (2008, 4, 18), (2008, 5, 1), (2008, 5, 19), (2008, 8, 15), (2008, 9, 3),
   (2008, 10, 2), (2008, 10, 9), (2008, 10, 30), (2008, 11, 13), (2008, 11, 27), (2008, 12, 9),
   (2008, 12, 25), (2009, 1, 8), (2009, 1, 26), (2009, 2, 23), (2009, 3, 10), (2009, 3, 11),
   (2009, 4, 3), (2009, 4, 7), (2009, 4, 10), (2009, 4, 14), (2009, 4, 30), (2009, 5, 1),
   (2009, 9, 21), (2009, 9, 28), (2009, 10, 2), (2009, 10, 13), (2009, 10, 19), (2009, 11, 2),
   (2009, 12, 25), (2009, 12, 28), (2010, 1, 1), (2010, 1, 26), (2010, 2, 12), (2010, 3, 1),
   (2010, 3, 24), (2010, 4, 2), (2010, 4, 14), (2010, 9, 10), (2010, 11, 17), (2010, 12, 17),
   (2011, 1, 26), (2011, 3, 2), (2011, 4, 12), (2011, 4, 14), (2011, 4, 22), (2011, 8, 15),
   (2011, 8, 31), (2011, 9, 1), (2011, 10, 6), (2011, 10, 27), (2011, 11, 7), (2011, 11, 10),
   (2011, 12, 6), (2012, 1, 26), (2012, 2, 20), (2012, 3, 8), (2012, 4, 5), (2012, 4, 6),
   (2012, 5, 1), (2012, 8, 15), (2012, 8, 20), (2012, 9, 19), (2012, 10, 2), (2012, 10, 24),
   (2012, 11, 14), (2012, 11, 28), (2012, 12, 25), (2013, 3, 27), (2013, 3, 29), (2013, 4, 19),
   (2013, 4, 24), (2013, 5, 1), (2013, 8, 9), (2013, 8, 15), (2013, 9, 9), (2013, 10, 2),
   (2013, 10, 16), (2013, 11, 4), (2013, 11, 15), (2013, 12, 25), (2014, 2, 27), (2014, 3, 17),
   (2014, 4, 8), (2014, 4, 14), (2014, 4, 18), (2014, 4, 24), (2014, 5, 1), (2014, 7, 29),
   (2014, 8, 15), (2014, 8, 29), (2014, 10, 2), (2014, 10, 3), (2014, 10, 6), (2014, 10, 15),
   (2014, 10, 24), (2014, 11, 4), (2014, 11, 6), (2014, 12, 25), (2015, 1, 26), (2015, 2, 17),
   (2015, 3, 6), (2015, 4, 2), (2015, 4, 3), (2015, 4, 14), (2015, 5, 1), (2015, 9, 17),
   (2015, 9, 25), (2015, 10, 2), (2015, 10, 22), (2015, 11, 12), (2015, 11, 25), (2015, 12, 25),
   (2016, 1, 26), (2016, 3, 7), (2016, 3, 24), (2016, 3, 25), (2016, 4, 14), (2016, 4, 15),
   (2016, 4, 19), (2016, 7, 6), (2016, 8, 15), (2016, 9, 5), (2016, 9, 13), (2016, 10, 11),
   (2016, 10, 12), (2016, 10, 31), (2016, 11, 14), (2017, 1, 26), (2017, 2, 24), (2017, 3, 13),
   (2017, 4, 4), (2017, 4, 14), (2017, 5, 1), (2017, 6, 26), (2017, 8, 15), (2017, 8, 25),
   (2017, 10, 2), (2017, 10, 20), (2017, 12, 25), (2018, 1, 26), (2018, 2, 13), (2018, 3, 2),
   (2018, 3, 29), (2018, 3, 30), (2018, 5, 1), (2018, 8, 15), (2018, 8, 22), (2018, 9, 13),
   (2018, 9, 20), (2018, 10, 2), (2018, 10, 18), (2018, 11, 8), (2018, 11, 23), (2018, 12, 25),
   (2019, 1, 26), (2019, 3, 2), (2019, 3, 4), (2019, 3, 21), (2019, 4, 17), (2019, 4, 19),
   (2019, 4, 29), (2019, 5, 1), (2019, 6, 5), (2019, 8, 12), (2019, 8, 15), (2019, 9, 2),
   (2019, 9, 10), (2019, 10, 2), (2019, 10, 8), (2019, 10, 21), (2019, 10, 28), (2019, 11, 12),
   (2019, 12, 25), (2020, 2, 21), (2020, 3, 10), (2020, 4, 2), (2020, 4, 6), (2020, 4, 10),
   (2020, 4, 14), (2020, 5, 1), (2020, 7, 31), (2020, 10, 2), (2020, 11, 16), (2020, 11, 30),
   (2020, 12, 25)]

/-- Holidays in Seoul (`exchange_calendar_xkrx.py` lines 23-537). -/
def seoulHolidays : List (Int × Int × Int) :=
  [(1986, 1, 1), (1986, 1, 2), (1986, 1, 3), (1986, 3, 10), (1986, 5, 5), (1986, 5, 16),
   (1986, 6, 6), (1986, 7, 17), (1986, 8, 15), (1986, 9, 18), (1986, 10, 1), (1986, 10, 3),
   (1986, 10, 9), (1986, 12, 25), (1986, 12, 29), (1986, 12, 30), (1986, 12, 31), (1987, 1, 1),
   (1987, 1, 2), (1987, 1, 29), (1987, 3, 10), (1987, 5, 5), (1987, 7, 17), (1987, 10, 1),
   (1987, 10, 7), (1987, 10, 8), (1987, 10, 9), (1987, 12, 25), (1987, 12, 28), (1987, 12, 29),
   (1987, 12, 30), (1987, 12, 31), (1988, 1, 1), (1988, 2, 18), (1988, 3, 1), (1988, 3, 10),
   (1988, 4, 5), (1988, 5, 5), (1988, 5, 23), (1988, 6, 6), (1988, 8, 15), (1988, 9, 26),
   (1988, 10, 3), (1988, 12, 27), (1988, 12, 28), (1988, 12, 29), (1988, 12, 30), (1989, 1, 2),
   (1989, 1, 3), (1989, 2, 6), (1989, 3, 1), (1989, 3, 10), (1989, 4, 5), (1989, 5, 5),
   (1989, 5, 12), (1989, 6, 6), (1989, 7, 17), (1989, 8, 15), (1989, 9, 14), (1989, 9, 15),
   (1989, 10, 12), (1989, 12, 25), (1990, 1, 1), (1990, 1, 2), (1990, 1, 26), (1990, 3, 1),
   (1990, 4, 5), (1990, 5, 2), (1990, 6, 6), (1990, 7, 17), (1990, 8, 15), (1990, 10, 1),
   (1990, 10, 2), (1990, 10, 3), (1990, 10, 4), (1990, 10, 9), (1990, 12, 25), (1990, 12, 27),
   (1990, 12, 28), (1990, 12, 31), (1991, 1, 2), (1991, 2, 14), (1991, 2, 15), (1991, 3, 1),
   (1991, 4, 5), (1991, 5, 21), (1991, 6, 6), (1991, 7, 17), (1991, 8, 15), (1991, 9, 23),
   (1991, 10, 3), (1991, 12, 25), (1991, 12, 27), (1991, 12, 30), (1991, 12, 31), (1992, 1, 1),
   (1992, 1, 2), (1992, 2, 3), (1992, 2, 4), (1992, 2, 5), (1992, 3, 10), (1992, 5, 5),
   (1992, 7, 17), (1992, 9, 10), (1992, 9, 11), (1992, 12, 25), (1992, 12, 28), (1992, 12, 29),
   (1992, 12, 30), (1992, 12, 31), (1993, 1, 1), (1993, 1, 22), (1993, 3, 1), (1993, 3, 10),
   (1993, 4, 5), (1993, 5, 5), (1993, 5, 28), (1993, 7, 7), (1993, 9, 29), (1993, 9, 30),
   (1993, 10, 1), (1994, 1, 3), (1994, 2, 9), (1994, 2, 10), (1994, 2, 11), (1994, 2, 14),
   (1994, 3, 1), (1994, 4, 5), (1994, 5, 5), (1994, 5, 18), (1994, 5, 20), (1994, 6, 6),
   (1994, 8, 15), (1994, 9, 19), (1994, 9, 20), (1994, 9, 21), (1994, 10, 3), (1994, 12, 29),
   (1994, 12, 30), (1995, 1, 2), (1995, 1, 30), (1995, 1, 31), (1995, 2, 1), (1995, 3, 1),
   (1995, 4, 5), (1995, 5, 1), (1995, 5, 5), (1995, 6, 6), (1995, 7, 17), (1995, 8, 15),
   (1995, 9, 8), (1995, 10, 3), (1995, 12, 25), (1995, 12, 29), (1996, 1, 1), (1996, 1, 2),
   (1996, 3, 1), (1996, 4, 5), (1996, 5, 1), (1996, 5, 24), (1996, 6, 6), (1996, 7, 17),
   (1996, 8, 15), (1996, 9, 26), (1996, 9, 27), (1996, 10, 3), (1996, 12, 25), (1996, 12, 30),
   (1996, 12, 31), (1997, 1, 1), (1997, 2, 7), (1997, 5, 5), (1997, 6, 6), (1997, 7, 17),
   (1997, 8, 15), (1997, 9, 15), (1997, 9, 16), (1997, 9, 17), (1997, 10, 3), (1997, 12, 25),
   (1997, 12, 30), (1997, 12, 31), (1998, 1, 1), (1998, 1, 2), (1998, 1, 27), (1998, 1, 28),
   (1998, 1, 29), (1998, 5, 1), (1998, 5, 5), (1998, 7, 17), (1998, 10, 5), (1998, 10, 6),
   (1998, 12, 25), (1998, 12, 29), (1998, 12, 30), (1998, 12, 31), (1999, 1, 1), (1999, 2, 15),
   (1999, 2, 16), (1999, 2, 17), (1999, 3, 1), (1999, 4, 5), (1999, 5, 5), (1999, 9, 23),
   (1999, 9, 24), (1999, 12, 29), (1999, 12, 30), (1999, 12, 31), (2000, 1, 3), (2000, 2, 4),
   (2000, 3, 1), (2000, 4, 5), (2000, 4, 13), (2000, 5, 1), (2000, 5, 5), (2000, 5, 11),
   (2000, 6, 6), (2000, 7, 17), (2000, 8, 15), (2000, 9, 11), (2000, 9, 12), (2000, 9, 13),
   (2000, 10, 3), (2000, 12, 25), (2000, 12, 27), (2000, 12, 28), (2000, 12, 29), (2001, 1, 1),
   (2001, 1, 23), (2001, 1, 24), (2001, 1, 25), (2001, 3, 1), (2001, 4, 5), (2001, 5, 1),
   (2001, 6, 6), (2001, 7, 17), (2001, 8, 15), (2001, 10, 1), (2001, 10, 2), (2001, 10, 3),
   (2001, 12, 25), (2001, 12, 31), (2002, 1, 1), (2002, 2, 11), (2002, 2, 12), (2002, 2, 13),
   (2002, 3, 1), (2002, 4, 5), (2002, 5, 1), (2002, 6, 6), (2002, 6, 13), (2002, 7, 1),
   (2002, 7, 17), (2002, 8, 15), (2002, 9, 20), (2002, 10, 3), (2002, 12, 19), (2002, 12, 25),
   (2002, 12, 31), (2003, 1, 1), (2003, 1, 31), (2003, 5, 1), (2003, 5, 5), (2003, 5, 8),
   (2003, 6, 6), (2003, 7, 17), (2003, 8, 15), (2003, 9, 10), (2003, 9, 11), (2003, 9, 12),
   (2003, 10, 3), (2003, 12, 25), (2003, 12, 31), (2004, 1, 1), (2004, 1, 21), (2004, 1, 22),
   (2004, 1, 23), (2004, 3, 1), (2004, 4, 5), (2004, 4, 15), (2004, 5, 5), (2004, 5, 26),
   (2004, 9, 27), (2004, 9, 28), (2004, 9, 29), (2004, 12, 31), (2005, 2, 8), (2005, 2, 9),
   (2005, 2, 10), (2005, 3, 1), (2005, 4, 5), (2005, 5, 5), (2005, 6, 6), (2005, 8, 15),
   (2005, 9, 19), (2005, 10, 3), (2005, 12, 30), (2006, 1, 30), (2006, 3, 1), (2006, 5, 1),
   (2006, 5, 5), (2006, 5, 31), (2006, 6, 6), (2006, 7, 17), (2006, 8, 15), (2006, 10, 3),
   (2006, 10, 5), (2006, 10, 6), (2006, 12, 25), (2006, 12, 29), (2007, 1, 1), (2007, 2, 19),
   (2007, 3, 1), (2007, 5, 1), (2007, 5, 24), (2007, 6, 6), (2007, 7, 17), (2007, 8, 15),
   (2007, 9, 24), (2007, 9, 25), (2007, 9, 26), (2007, 10, 3), (2007, 12, 19), (2007, 12, 25),
   (2007, 12, 31), (2008, 1, 1), (2008, 2, 6), (2008, 2, 7), (2008, 2, 8), (2008, 4, 9),
   (2008, 5, 1), (2008, 5, 5), (2008, 5, 12), (2008, 6, 6), (2008, 8, 15), (2008, 9, 15),
   (2008, 10, 3), (2008, 12, 25), (2008, 12, 31), (2009, 1, 1), (2009, 1, 26), (2009, 1, 27),
   (2009, 5, 1), (2009, 5, 5), (2009, 10, 2), (2009, 12, 25), (2009, 12, 31), (2010, 1, 1),
   (2010, 2, 15), (2010, 3, 1), (2010, 5, 5), (2010, 5, 21), (2010, 6, 2), (2010, 9, 21),
   (2010, 9, 22), (2010, 9, 23), (2010, 12, 31), (2011, 2, 2), (2011, 2, 3), (2011, 2, 4),
   (2011, 3, 1), (2011, 5, 5), (2011, 5, 10), (2011, 6, 6), (2011, 8, 15), (2011, 9, 12),
   (2011, 9, 13), (2011, 10, 3), (2011, 12, 30), (2012, 1, 23), (2012, 1, 24), (2012, 3, 1),
   (2012, 4, 11), (2012, 5, 1), (2012, 5, 28), (2012, 6, 6), (2012, 8, 15), (2012, 10, 1),
   (2012, 10, 3), (2012, 12, 19), (2012, 12, 25), (2012, 12, 31), (2013, 1, 1), (2013, 2, 11),
   (2013, 3, 1), (2013, 5, 1), (2013, 5, 17), (2013, 6, 6), (2013, 8, 15), (2013, 9, 18),
   (2013, 9, 19), (2013, 9, 20), (2013, 10, 3), (2013, 10, 9), (2013, 12, 25), (2013, 12, 31),
   (2014, 1, 1), (2014, 1, 30), (2014, 1, 31), (2014, 5, 1), (2014, 5, 5), (2014, 5, 6),
   (2014, 6, 4), (2014, 6, 6), (2014, 8, 15), (2014, 9, 8), (2014, 9, 9), (2014, 9, 10),
   (2014, 10, 3), (2014, 10, 9), (2014, 12, 25), (2014, 12, 31), (2015, 1, 1), (2015, 2, 18),
   (2015, 2, 19), (2015, 2, 20), (2015, 5, 1), (2015, 5, 5), (2015, 5, 25), (2015, 8, 14),
   (2015, 9, 28), (2015, 9, 29), (2015, 10, 9), (2015, 12, 25), (2015, 12, 31), (2016, 1, 1),
   (2016, 2, 8), (2016, 2, 9), (2016, 2, 10), (2016, 3, 1), (2016, 4, 13), (2016, 5, 5),
   (2016, 5, 6), (2016, 6, 6), (2016, 8, 15), (2016, 9, 14), (2016, 9, 15), (2016, 9, 16),
   (2016, 10, 3), (2016, 12, 30), (2017, 1, 27), (2017, 1, 30), (2017, 3, 1), (2017, 5, 1),
   (2017, 5, 3), (2017, 5, 5), (2017, 5, 9), (2017, 6, 6), (2017, 8, 15), (2017, 10, 2),
   (2017, 10, 3), (2017, 10, 4), (2017, 10, 5), (2017, 10, 6), (2017, 10, 9), (2017, 12, 25),
   (2017, 12, 29), (2018, 1, 1), (2018, 2, 15), (2018, 2, 16), (2018, 3, 1), (2018, 5, 1),
   (2018, 5, 7), (2018, 5, 22), (2018, 6, 6), (2018, 6, 13), (2018, 8, 15), (2018, 9, 24),
   (2018, 9, 25), (2018, 9, 26), (2018, 10, 3), (2018, 10, 9), (2018, 12, 25), (2018, 12, 31),
   (2019, 1, 1), (2019, 2, 4), (2019, 2, 5), (2019, 2, 6), (2019, 3, 1), (2019, 5, 1), (2019, 5, 6),
   (2019, 6, 6), (2019, 8, 15), (2019, 9, 12), (2019, 9, 13), (2019, 10, 3), (2019, 10, 9),
   (2019, 12, 25), (2019, 12, 31), (2020, 1, 1), (2020, 1, 24), (2020, 1, 27), (2020, 4, 15),
   (2020, 4, 30), (2020, 5, 1), (2020, 5, 5), (2020, 8, 17), (2020, 9, 30), (2020, 10, 1),
   (2020, 10, 2), (2020, 10, 9), (2020, 12, 25), (2020, 12, 31), (2021, 1, 1), (2021, 2, 11),
   (2021, 2, 12), (2021, 3, 1), (2021, 5, 5), (2021, 5, 19), (2021, 9, 20), (2021, 9, 21),
   (2021, 9, 22), (2021, 12, 31)]

/-- Holidays in Singapore (`exchange_calendar_xses.py` lines 6-351). -/
def singaporeHolidays : List (Int × Int × Int) :=
  [(1986, 1, 1), (1986, 2, 10), (1986, 2, 11), (1986, 3, 28), (1986, 5, 1), (1986, 5, 23),
   (1986, 6, 9), (1986, 12, 25), (1987, 1, 1), (1987, 1, 29), (1987, 1, 30), (1987, 5, 1),
   (1987, 5, 12), (1987, 5, 29), (1987, 8, 5), (1987, 8, 10), (1987, 10, 21), (1987, 12, 25),
   (1988, 1, 1), (1988, 2, 17), (1988, 2, 18), (1988, 4, 1), (1988, 5, 2), (1988, 5, 17),
   (1988, 5, 30), (1988, 7, 25), (1988, 8, 9), (1988, 11, 8), (1988, 12, 26), (1989, 1, 2),
   (1989, 2, 6), (1989, 2, 7), (1989, 3, 24), (1989, 5, 1), (1989, 5, 8), (1989, 5, 19),
   (1989, 7, 13), (1989, 8, 9), (1989, 12, 25), (1990, 1, 1), (1990, 4, 13), (1990, 4, 26),
   (1990, 5, 1), (1990, 5, 9), (1990, 7, 3), (1990, 8, 9), (1990, 12, 25), (1991, 1, 1),
   (1991, 1, 15), (1991, 3, 29), (1991, 4, 16), (1991, 5, 1), (1991, 5, 28), (1991, 6, 24),
   (1991, 8, 9), (1991, 11, 5), (1991, 12, 24), (1991, 12, 25), (1991, 12, 31), (1992, 1, 1),
   (1992, 2, 4), (1992, 2, 5), (1992, 4, 6), (1992, 4, 17), (1992, 5, 1), (1992, 6, 11),
   (1992, 8, 10), (1992, 12, 25), (1993, 1, 1), (1993, 1, 25), (1993, 3, 25), (1993, 4, 9),
   (1993, 5, 6), (1993, 6, 1), (1993, 8, 9), (1994, 1, 10), (1994, 1, 11), (1994, 2, 1),
   (1994, 2, 11), (1994, 3, 14), (1994, 4, 1), (1994, 5, 2), (1994, 5, 25), (1994, 8, 9),
   (1994, 10, 13), (1994, 11, 2), (1994, 12, 26), (1995, 1, 2), (1995, 1, 31), (1995, 2, 1),
   (1995, 3, 3), (1995, 4, 14), (1995, 5, 1), (1995, 5, 10), (1995, 5, 15), (1995, 8, 9),
   (1995, 10, 23), (1995, 12, 25), (1996, 1, 1), (1996, 2, 19), (1996, 2, 20), (1996, 2, 21),
   (1996, 4, 5), (1996, 5, 1), (1996, 5, 31), (1996, 8, 9), (1996, 12, 25), (1997, 1, 1),
   (1997, 2, 7), (1997, 2, 10), (1997, 3, 28), (1997, 4, 18), (1997, 5, 1), (1997, 5, 21),
   (1997, 12, 25), (1998, 1, 1), (1998, 1, 28), (1998, 1, 29), (1998, 1, 30), (1998, 4, 7),
   (1998, 4, 10), (1998, 5, 1), (1998, 5, 11), (1998, 8, 10), (1998, 10, 19), (1998, 12, 25),
   (1999, 1, 1), (1999, 1, 19), (1999, 2, 16), (1999, 2, 17), (1999, 3, 29), (1999, 4, 2),
   (1999, 8, 9), (1999, 11, 8), (1999, 12, 31), (2000, 2, 7), (2000, 3, 16), (2000, 4, 21),
   (2000, 5, 1), (2000, 5, 18), (2000, 8, 9), (2000, 10, 26), (2000, 12, 25), (2000, 12, 27),
   (2001, 1, 1), (2001, 1, 24), (2001, 1, 25), (2001, 3, 6), (2001, 4, 13), (2001, 5, 1),
   (2001, 5, 7), (2001, 8, 9), (2001, 11, 14), (2001, 12, 17), (2001, 12, 25), (2002, 1, 1),
   (2002, 2, 12), (2002, 2, 13), (2002, 3, 29), (2002, 5, 1), (2002, 5, 27), (2002, 8, 9),
   (2002, 11, 4), (2002, 12, 6), (2002, 12, 25), (2003, 1, 1), (2003, 2, 3), (2003, 2, 12),
   (2003, 4, 18), (2003, 5, 1), (2003, 5, 15), (2003, 10, 24), (2003, 11, 25), (2003, 12, 25),
   (2004, 1, 1), (2004, 1, 22), (2004, 1, 23), (2004, 2, 2), (2004, 4, 9), (2004, 6, 2),
   (2004, 8, 9), (2004, 11, 11), (2004, 11, 15), (2005, 1, 21), (2005, 2, 9), (2005, 2, 10),
   (2005, 3, 25), (2005, 5, 2), (2005, 5, 23), (2005, 8, 9), (2005, 11, 1), (2005, 11, 3),
   (2005, 12, 26), (2006, 1, 2), (2006, 1, 10), (2006, 1, 30), (2006, 1, 31), (2006, 4, 14),
   (2006, 5, 1), (2006, 5, 12), (2006, 8, 9), (2006, 10, 24), (2006, 12, 25), (2007, 1, 1),
   (2007, 1, 2), (2007, 2, 19), (2007, 2, 20), (2007, 4, 6), (2007, 5, 1), (2007, 5, 31),
   (2007, 8, 9), (2007, 11, 8), (2007, 12, 20), (2007, 12, 25), (2008, 1, 1), (2008, 2, 7),
   (2008, 2, 8), (2008, 3, 21), (2008, 5, 1), (2008, 5, 19), (2008, 10, 1), (2008, 10, 27),
   (2008, 12, 8), (2008, 12, 25), (2009, 1, 1), (2009, 1, 26), (2009, 1, 27), (2009, 4, 10),
   (2009, 5, 1), (2009, 8, 10), (2009, 9, 21), (2009, 11, 27), (2009, 12, 25), (2010, 1, 1),
   (2010, 2, 15), (2010, 2, 16), (2010, 4, 2), (2010, 5, 28), (2010, 8, 9), (2010, 9, 10),
   (2010, 11, 5), (2010, 11, 17), (2011, 2, 3), (2011, 2, 4), (2011, 4, 22), (2011, 5, 2),
   (2011, 5, 17), (2011, 8, 9), (2011, 8, 30), (2011, 10, 26), (2011, 11, 7), (2011, 12, 26),
   (2012, 1, 2), (2012, 1, 23), (2012, 1, 24), (2012, 4, 6), (2012, 5, 1), (2012, 8, 9),
   (2012, 8, 20), (2012, 10, 26), (2012, 11, 13), (2012, 12, 25), (2013, 1, 1), (2013, 2, 11),
   (2013, 2, 12), (2013, 3, 29), (2013, 5, 1), (2013, 5, 24), (2013, 8, 8), (2013, 8, 9),
   (2013, 10, 15), (2013, 12, 25), (2014, 1, 1), (2014, 1, 31), (2014, 4, 18), (2014, 5, 1),
   (2014, 5, 13), (2014, 7, 28), (2014, 10, 6), (2014, 10, 22), (2014, 12, 25), (2015, 1, 1),
   (2015, 2, 19), (2015, 2, 20), (2015, 4, 3), (2015, 5, 1), (2015, 6, 1), (2015, 7, 17),
   (2015, 8, 7), (2015, 8, 10), (2015, 9, 11), (2015, 9, 24), (2015, 11, 10), (2015, 12, 25),
   (2016, 1, 1), (2016, 2, 8), (2016, 2, 9), (2016, 3, 25), (2016, 5, 2), (2016, 7, 6),
   (2016, 8, 9), (2016, 9, 12), (2016, 12, 26), (2017, 1, 2), (2017, 1, 30), (2017, 4, 14),
   (2017, 5, 1), (2017, 5, 10), (2017, 6, 26), (2017, 8, 9), (2017, 9, 1), (2017, 10, 18),
   (2017, 12, 25), (2018, 1, 1), (2018, 2, 16), (2018, 3, 30), (2018, 5, 1), (2018, 5, 29),
   (2018, 6, 15), (2018, 8, 9), (2018, 8, 22), (2018, 11, 6), (2018, 12, 25), (2019, 1, 1),
   (2019, 2, 5), (2019, 2, 6), (2019, 4, 19), (2019, 5, 1), (2019, 5, 20), (2019, 6, 5),
   (2019, 8, 9), (2019, 8, 12), (2019, 10, 28), (2019, 12, 25), (2020, 1, 1), (2020, 1, 27),
   (2020, 4, 10), (2020, 5, 1), (2020, 5, 7), (2020, 5, 25), (2020, 7, 10), (2020, 7, 31),
   (2020, 8, 10), (2020, 12, 25)]

/-- Holidays in Shanghai (`exchange_calendar_xshg.py` lines 6-482). -/
def shanghaiHolidays : List (Int × Int × Int) :=
  [(1999, 1, 1), (1999, 2, 10), (1999, 2, 11), (1999, 2, 12), (1999, 2, 15), (1999, 2, 16),
   (1999, 2, 17), (1999, 2, 18), (1999, 2, 19), (1999, 2, 22), (1999, 2, 23), (1999, 2, 24),
   (1999, 2, 25), (1999, 2, 26), (1999, 5, 3), (1999, 10, 1), (1999, 10, 4), (1999, 10, 5),
   (1999, 10, 6), (1999, 10, 7), (1999, 12, 20), (1999, 12, 31), (2000, 1, 3), (2000, 1, 31),
   (2000, 2, 1), (2000, 2, 2), (2000, 2, 3), (2000, 2, 4), (2000, 2, 7), (2000, 2, 8), (2000, 2, 9),
   (2000, 2, 10), (2000, 2, 11), (2000, 5, 1), (2000, 5, 2), (2000, 5, 3), (2000, 5, 4),
   (2000, 5, 5), (2000, 10, 2), (2000, 10, 3), (2000, 10, 4), (2000, 10, 5), (2000, 10, 6),
   (2001, 1, 1), (2001, 1, 22), (2001, 1, 23), (2001, 1, 24), (2001, 1, 25), (2001, 1, 26),
   (2001, 1, 29), (2001, 1, 30), (2001, 1, 31), (2001, 2, 1), (2001, 2, 2), (2001, 5, 1),
   (2001, 5, 2), (2001, 5, 3), (2001, 5, 4), (2001, 5, 7), (2001, 10, 1), (2001, 10, 2),
   (2001, 10, 3), (2001, 10, 4), (2001, 10, 5), (2002, 1, 1), (2002, 1, 2), (2002, 1, 3),
   (2002, 2, 11), (2002, 2, 12), (2002, 2, 13), (2002, 2, 14), (2002, 2, 15), (2002, 2, 18),
   (2002, 2, 19), (2002, 2, 20), (2002, 2, 21), (2002, 2, 22), (2002, 5, 1), (2002, 5, 2),
   (2002, 5, 3), (2002, 5, 6), (2002, 5, 7), (2002, 9, 30), (2002, 10, 1), (2002, 10, 2),
   (2002, 10, 3), (2002, 10, 4), (2002, 10, 7), (2003, 1, 1), (2003, 1, 30), (2003, 1, 31),
   (2003, 2, 3), (2003, 2, 4), (2003, 2, 5), (2003, 2, 6), (2003, 2, 7), (2003, 5, 1), (2003, 5, 2),
   (2003, 5, 5), (2003, 5, 6), (2003, 5, 7), (2003, 5, 8), (2003, 5, 9), (2003, 10, 1),
   (2003, 10, 2), (2003, 10, 3), (2003, 10, 6), (2003, 10, 7), (2004, 1, 1), (2004, 1, 19),
   (2004, 1, 20), (2004, 1, 21), (2004, 1, 22), (2004, 1, 23), (2004, 1, 26), (2004, 1, 27),
   (2004, 1, 28), (2004, 5, 3), (2004, 5, 4), (2004, 5, 5), (2004, 5, 6), (2004, 5, 7),
   (2004, 10, 1), (2004, 10, 4), (2004, 10, 5), (2004, 10, 6), (2004, 10, 7), (2005, 1, 3),
   (2005, 2, 7), (2005, 2, 8), (2005, 2, 9), (2005, 2, 10), (2005, 2, 11), (2005, 2, 14),
   (2005, 2, 15), (2005, 5, 2), (2005, 5, 3), (2005, 5, 4), (2005, 5, 5), (2005, 5, 6),
   (2005, 10, 3), (2005, 10, 4), (2005, 10, 5), (2005, 10, 6), (2005, 10, 7), (2006, 1, 2),
   (2006, 1, 3), (2006, 1, 26), (2006, 1, 27), (2006, 1, 30), (2006, 1, 31), (2006, 2, 1),
   (2006, 2, 2), (2006, 2, 3), (2006, 5, 1), (2006, 5, 2), (2006, 5, 3), (2006, 5, 4), (2006, 5, 5),
   (2006, 10, 2), (2006, 10, 3), (2006, 10, 4), (2006, 10, 5), (2006, 10, 6), (2007, 1, 1),
   (2007, 1, 2), (2007, 1, 3), (2007, 2, 19), (2007, 2, 20), (2007, 2, 21), (2007, 2, 22),
   (2007, 2, 23), (2007, 5, 1), (2007, 5, 2), (2007, 5, 3), (2007, 5, 4), (2007, 5, 7),
   (2007, 10, 1), (2007, 10, 2), (2007, 10, 3), (2007, 10, 4), (2007, 10, 5), (2007, 12, 31),
   (2008, 1, 1), (2008, 2, 6), (2008, 2, 7), (2008, 2, 8), (2008, 2, 11), (2008, 2, 12),
   (2008, 4, 4), (2008, 5, 1), (2008, 5, 2), (2008, 6, 9), (2008, 9, 15), (2008, 9, 29),
   (2008, 9, 30), (2008, 10, 1), (2008, 10, 2), (2008, 10, 3), (2009, 1, 1), (2009, 1, 2),
   (2009, 1, 26), (2009, 1, 27), (2009, 1, 28), (2009, 1, 29), (2009, 1, 30), (2009, 4, 6),
   (2009, 5, 1), (2009, 5, 28), (2009, 5, 29), (2009, 10, 1), (2009, 10, 2), (2009, 10, 5),
   (2009, 10, 6), (2009, 10, 7), (2009, 10, 8), (2010, 1, 1), (2010, 2, 15), (2010, 2, 16),
   (2010, 2, 17), (2010, 2, 18), (2010, 2, 19), (2010, 4, 5), (2010, 5, 3), (2010, 6, 14),
   (2010, 6, 15), (2010, 6, 16), (2010, 9, 22), (2010, 9, 23), (2010, 9, 24), (2010, 10, 1),
   (2010, 10, 4), (2010, 10, 5), (2010, 10, 6), (2010, 10, 7), (2011, 1, 3), (2011, 2, 2),
   (2011, 2, 3), (2011, 2, 4), (2011, 2, 7), (2011, 2, 8), (2011, 4, 4), (2011, 4, 5), (2011, 5, 2),
   (2011, 6, 6), (2011, 9, 12), (2011, 10, 3), (2011, 10, 4), (2011, 10, 5), (2011, 10, 6),
   (2011, 10, 7), (2012, 1, 2), (2012, 1, 3), (2012, 1, 23), (2012, 1, 24), (2012, 1, 25),
   (2012, 1, 26), (2012, 1, 27), (2012, 4, 2), (2012, 4, 3), (2012, 4, 4), (2012, 4, 30),
   (2012, 5, 1), (2012, 6, 22), (2012, 10, 1), (2012, 10, 2), (2012, 10, 3), (2012, 10, 4),
   (2012, 10, 5), (2013, 1, 1), (2013, 1, 2), (2013, 1, 3), (2013, 2, 11), (2013, 2, 12),
   (2013, 2, 13), (2013, 2, 14), (2013, 2, 15), (2013, 4, 4), (2013, 4, 5), (2013, 4, 29),
   (2013, 4, 30), (2013, 5, 1), (2013, 6, 10), (2013, 6, 11), (2013, 6, 12), (2013, 9, 19),
   (2013, 9, 20), (2013, 10, 1), (2013, 10, 2), (2013, 10, 3), (2013, 10, 4), (2013, 10, 7),
   (2014, 1, 1), (2014, 1, 31), (2014, 2, 3), (2014, 2, 4), (2014, 2, 5), (2014, 2, 6),
   (2014, 4, 7), (2014, 5, 1), (2014, 5, 2), (2014, 6, 2), (2014, 9, 8), (2014, 10, 1),
   (2014, 10, 2), (2014, 10, 3), (2014, 10, 6), (2014, 10, 7), (2015, 1, 1), (2015, 1, 2),
   (2015, 2, 18), (2015, 2, 19), (2015, 2, 20), (2015, 2, 23), (2015, 2, 24), (2015, 4, 6),
   (2015, 5, 1), (2015, 6, 22), (2015, 9, 3), (2015, 9, 4), (2015, 10, 1), (2015, 10, 2),
   (2015, 10, 5), (2015, 10, 6), (2015, 10, 7), (2016, 1, 1), (2016, 2, 8), (2016, 2, 9),
   (2016, 2, 10), (2016, 2, 11), (2016, 2, 12), (2016, 4, 4), (2016, 5, 2), (2016, 6, 9),
   (2016, 6, 10), (2016, 9, 15), (2016, 9, 16), (2016, 10, 3), (2016, 10, 4), (2016, 10, 5),
   (2016, 10, 6), (2016, 10, 7), (2017, 1, 2), (2017, 1, 27), (2017, 1, 30), (2017, 1, 31),
   (2017, 2, 1), (2017, 2, 2), (2017, 4, 3), (2017, 4, 4), (2017, 5, 1), (2017, 5, 29),
   (2017, 5, 30), (2017, 10, 2), (2017, 10, 3), (2017, 10, 4), (2017, 10, 5), (2017, 10, 6),
   (2018, 1, 1), (2018, 2, 15), (2018, 2, 16), (2018, 2, 19), (2018, 2, 20), (2018, 2, 21),
   (2018, 4, 5), (2018, 4, 6), (2018, 4, 30), (2018, 5, 1), (2018, 6, 18), (2018, 9, 24),
   (2018, 10, 1), (2018, 10, 2), (2018, 10, 3), (2018, 10, 4), (2018, 10, 5), (2018, 12, 31),
   (2019, 1, 1), (2019, 2, 4), (2019, 2, 5), (2019, 2, 6), (2019, 2, 7), (2019, 2, 8), (2019, 4, 5),
   (2019, 5, 1), (2019, 5, 2), (2019, 5, 3), (2019, 6, 7), (2019, 9, 13), (2019, 10, 1),
   (2019, 10, 2), (2019, 10, 3), (2019, 10, 4), (2019, 10, 7), (2020, 1, 1), (2020, 1, 24),
   (2020, 1, 27), (2020, 1, 28), (2020, 1, 29), (2020, 1, 30), (2020, 4, 6), (2020, 5, 1),
   (2020, 5, 4), (2020, 5, 5), (2020, 6, 25), (2020, 6, 26), (2020, 10, 1), (2020, 10, 2),
   (2020, 10, 5), (2020, 10, 6), (2020, 10, 7), (2020, 10, 8), (2021, 1, 1), (2021, 2, 11),
   (2021, 2, 12), (2021, 2, 15), (2021, 2, 16), (2021, 2, 17), (2021, 4, 5), (2021, 5, 3),
   (2021, 6, 14), (2021, 9, 20), (2021, 9, 21), (2021, 10, 1), (2021, 10, 4), (2021, 10, 5),
   (2021, 10, 6), (2021, 10, 7), (2022, 1, 3), (2022, 2, 1), (2022, 2, 2), (2022, 2, 3),
   (2022, 2, 4), (2022, 4, 5), (2022, 6, 3), (2022, 10, 3), (2022, 10, 4), (2022, 10, 5),
   (2023, 1, 2), (2023, 1, 23), (2023, 1, 24), (2023, 1, 25), (2023, 1, 26), (2023, 1, 27),
   (2023, 4, 5), (2023, 5, 1), (2023, 6, 22), (2023, 9, 29), (2023, 10, 2), (2023, 10, 3),
   (2023, 10, 4), (2023, 10, 5), (2024, 1, 1), (2024, 2, 12), (2024, 2, 13), (2024, 2, 14),
   (2024, 2, 15), (2024, 4, 4), (2024, 5, 1), (2024, 6, 10), (2024, 9, 17), (2024, 10, 1),
   (2024, 10, 2), (2024, 10, 3), (2024, 10, 4), (2025, 1, 1), (2025, 1, 29), (2025, 1, 30),
   (2025, 1, 31), (2025, 2, 3), (2025, 4, 4), (2025, 5, 1), (2025, 10, 1), (2025, 10, 2),
   (2025, 10, 3), (2025, 10, 4)]

end TC.Spec.Feasts
