import Verif.Model.Exchange
import Verif.Model.Zones

/-! `/repo/trading_calendars/exchange_calendar_xshg.py`, translated by `tools/gen_exchanges.py`. -/

namespace TC.Xshg

/-- `precomputed_shanghai_holidays`, `exchange_calendar_xshg.py` lines 6-482. -/
def precomputedShanghaiHolidays : List Int :=
  [dayOf 1999 1 1, dayOf 1999 2 10, dayOf 1999 2 11, dayOf 1999 2 12, dayOf 1999 2 15,
   dayOf 1999 2 16, dayOf 1999 2 17, dayOf 1999 2 18, dayOf 1999 2 19, dayOf 1999 2 22,
   dayOf 1999 2 23, dayOf 1999 2 24, dayOf 1999 2 25, dayOf 1999 2 26, dayOf 1999 5 3,
   dayOf 1999 10 1, dayOf 1999 10 4, dayOf 1999 10 5, dayOf 1999 10 6, dayOf 1999 10 7,
   dayOf 1999 12 20, dayOf 1999 12 31, dayOf 2000 1 3, dayOf 2000 1 31, dayOf 2000 2 1,
   dayOf 2000 2 2, dayOf 2000 2 3, dayOf 2000 2 4, dayOf 2000 2 7, dayOf 2000 2 8, dayOf 2000 2 9,
   dayOf 2000 2 10, dayOf 2000 2 11, dayOf 2000 5 1, dayOf 2000 5 2, dayOf 2000 5 3, dayOf 2000 5 4,
   dayOf 2000 5 5, dayOf 2000 10 2, dayOf 2000 10 3, dayOf 2000 10 4, dayOf 2000 10 5,
   dayOf 2000 10 6, dayOf 2001 1 1, dayOf 2001 1 22, dayOf 2001 1 23, dayOf 2001 1 24,
   dayOf 2001 1 25, dayOf 2001 1 26, dayOf 2001 1 29, dayOf 2001 1 30, dayOf 2001 1 31,
   dayOf 2001 2 1, dayOf 2001 2 2, dayOf 2001 5 1, dayOf 2001 5 2, dayOf 2001 5 3, dayOf 2001 5 4,
   dayOf 2001 5 7, dayOf 2001 10 1, dayOf 2001 10 2, dayOf 2001 10 3, dayOf 2001 10 4,
   dayOf 2001 10 5, dayOf 2002 1 1, dayOf 2002 1 2, dayOf 2002 1 3, dayOf 2002 2 11,
   dayOf 2002 2 12, dayOf 2002 2 13, dayOf 2002 2 14, dayOf 2002 2 15, dayOf 2002 2 18,
   dayOf 2002 2 19, dayOf 2002 2 20, dayOf 2002 2 21, dayOf 2002 2 22, dayOf 2002 5 1,
   dayOf 2002 5 2, dayOf 2002 5 3, dayOf 2002 5 6, dayOf 2002 5 7, dayOf 2002 9 30, dayOf 2002 10 1,
   dayOf 2002 10 2, dayOf 2002 10 3, dayOf 2002 10 4, dayOf 2002 10 7, dayOf 2003 1 1,
   dayOf 2003 1 30, dayOf 2003 1 31, dayOf 2003 2 3, dayOf 2003 2 4, dayOf 2003 2 5, dayOf 2003 2 6,
   dayOf 2003 2 7, dayOf 2003 5 1, dayOf 2003 5 2, dayOf 2003 5 5, dayOf 2003 5 6, dayOf 2003 5 7,
   dayOf 2003 5 8, dayOf 2003 5 9, dayOf 2003 10 1, dayOf 2003 10 2, dayOf 2003 10 3,
   dayOf 2003 10 6, dayOf 2003 10 7, dayOf 2004 1 1, dayOf 2004 1 19, dayOf 2004 1 20,
   dayOf 2004 1 21, dayOf 2004 1 22, dayOf 2004 1 23, dayOf 2004 1 26, dayOf 2004 1 27,
   dayOf 2004 1 28, dayOf 2004 5 3, dayOf 2004 5 4, dayOf 2004 5 5, dayOf 2004 5 6, dayOf 2004 5 7,
   dayOf 2004 10 1, dayOf 2004 10 4, dayOf 2004 10 5, dayOf 2004 10 6, dayOf 2004 10 7,
   dayOf 2005 1 3, dayOf 2005 2 7, dayOf 2005 2 8, dayOf 2005 2 9, dayOf 2005 2 10, dayOf 2005 2 11,
   dayOf 2005 2 14, dayOf 2005 2 15, dayOf 2005 5 2, dayOf 2005 5 3, dayOf 2005 5 4, dayOf 2005 5 5,
   dayOf 2005 5 6, dayOf 2005 10 3, dayOf 2005 10 4, dayOf 2005 10 5, dayOf 2005 10 6,
   dayOf 2005 10 7, dayOf 2006 1 2, dayOf 2006 1 3, dayOf 2006 1 26, dayOf 2006 1 27,
   dayOf 2006 1 30, dayOf 2006 1 31, dayOf 2006 2 1, dayOf 2006 2 2, dayOf 2006 2 3, dayOf 2006 5 1,
   dayOf 2006 5 2, dayOf 2006 5 3, dayOf 2006 5 4, dayOf 2006 5 5, dayOf 2006 10 2, dayOf 2006 10 3,
   dayOf 2006 10 4, dayOf 2006 10 5, dayOf 2006 10 6, dayOf 2007 1 1, dayOf 2007 1 2,
   dayOf 2007 1 3, dayOf 2007 2 19, dayOf 2007 2 20, dayOf 2007 2 21, dayOf 2007 2 22,
   dayOf 2007 2 23, dayOf 2007 5 1, dayOf 2007 5 2, dayOf 2007 5 3, dayOf 2007 5 4, dayOf 2007 5 7,
   dayOf 2007 10 1, dayOf 2007 10 2, dayOf 2007 10 3, dayOf 2007 10 4, dayOf 2007 10 5,
   dayOf 2007 12 31, dayOf 2008 1 1, dayOf 2008 2 6, dayOf 2008 2 7, dayOf 2008 2 8,
   dayOf 2008 2 11, dayOf 2008 2 12, dayOf 2008 4 4, dayOf 2008 5 1, dayOf 2008 5 2, dayOf 2008 6 9,
   dayOf 2008 9 15, dayOf 2008 9 29, dayOf 2008 9 30, dayOf 2008 10 1, dayOf 2008 10 2,
   dayOf 2008 10 3, dayOf 2009 1 1, dayOf 2009 1 2, dayOf 2009 1 26, dayOf 2009 1 27,
   dayOf 2009 1 28, dayOf 2009 1 29, dayOf 2009 1 30, dayOf 2009 4 6, dayOf 2009 5 1,
   dayOf 2009 5 28, dayOf 2009 5 29, dayOf 2009 10 1, dayOf 2009 10 2, dayOf 2009 10 5,
   dayOf 2009 10 6, dayOf 2009 10 7, dayOf 2009 10 8, dayOf 2010 1 1, dayOf 2010 2 15,
   dayOf 2010 2 16, dayOf 2010 2 17, dayOf 2010 2 18, dayOf 2010 2 19, dayOf 2010 4 5,
   dayOf 2010 5 3, dayOf 2010 6 14, dayOf 2010 6 15, dayOf 2010 6 16, dayOf 2010 9 22,
   dayOf 2010 9 23, dayOf 2010 9 24, dayOf 2010 10 1, dayOf 2010 10 4, dayOf 2010 10 5,
   dayOf 2010 10 6, dayOf 2010 10 7, dayOf 2011 1 3, dayOf 2011 2 2, dayOf 2011 2 3, dayOf 2011 2 4,
   dayOf 2011 2 7, dayOf 2011 2 8, dayOf 2011 4 4, dayOf 2011 4 5, dayOf 2011 5 2, dayOf 2011 6 6,
   dayOf 2011 9 12, dayOf 2011 10 3, dayOf 2011 10 4, dayOf 2011 10 5, dayOf 2011 10 6,
   dayOf 2011 10 7, dayOf 2012 1 2, dayOf 2012 1 3, dayOf 2012 1 23, dayOf 2012 1 24,
   dayOf 2012 1 25, dayOf 2012 1 26, dayOf 2012 1 27, dayOf 2012 4 2, dayOf 2012 4 3,
   dayOf 2012 4 4, dayOf 2012 4 30, dayOf 2012 5 1, dayOf 2012 6 22, dayOf 2012 10 1,
   dayOf 2012 10 2, dayOf 2012 10 3, dayOf 2012 10 4, dayOf 2012 10 5, dayOf 2013 1 1,
   dayOf 2013 1 2, dayOf 2013 1 3, dayOf 2013 2 11, dayOf 2013 2 12, dayOf 2013 2 13,
   dayOf 2013 2 14, dayOf 2013 2 15, dayOf 2013 4 4, dayOf 2013 4 5, dayOf 2013 4 29,
   dayOf 2013 4 30, dayOf 2013 5 1, dayOf 2013 6 10, dayOf 2013 6 11, dayOf 2013 6 12,
   dayOf 2013 9 19, dayOf 2013 9 20, dayOf 2013 10 1, dayOf 2013 10 2, dayOf 2013 10 3,
   dayOf 2013 10 4, dayOf 2013 10 7, dayOf 2014 1 1, dayOf 2014 1 31, dayOf 2014 2 3,
   dayOf 2014 2 4, dayOf 2014 2 5, dayOf 2014 2 6, dayOf 2014 4 7, dayOf 2014 5 1, dayOf 2014 5 2,
   dayOf 2014 6 2, dayOf 2014 9 8, dayOf 2014 10 1, dayOf 2014 10 2, dayOf 2014 10 3,
   dayOf 2014 10 6, dayOf 2014 10 7, dayOf 2015 1 1, dayOf 2015 1 2, dayOf 2015 2 18,
   dayOf 2015 2 19, dayOf 2015 2 20, dayOf 2015 2 23, dayOf 2015 2 24, dayOf 2015 4 6,
   dayOf 2015 5 1, dayOf 2015 6 22, dayOf 2015 9 3, dayOf 2015 9 4, dayOf 2015 10 1,
   dayOf 2015 10 2, dayOf 2015 10 5, dayOf 2015 10 6, dayOf 2015 10 7, dayOf 2016 1 1,
   dayOf 2016 2 8, dayOf 2016 2 9, dayOf 2016 2 10, dayOf 2016 2 11, dayOf 2016 2 12,
   dayOf 2016 4 4, dayOf 2016 5 2, dayOf 2016 6 9, dayOf 2016 6 10, dayOf 2016 9 15,
   dayOf 2016 9 16, dayOf 2016 10 3, dayOf 2016 10 4, dayOf 2016 10 5, dayOf 2016 10 6,
   dayOf 2016 10 7, dayOf 2017 1 2, dayOf 2017 1 27, dayOf 2017 1 30, dayOf 2017 1 31,
   dayOf 2017 2 1, dayOf 2017 2 2, dayOf 2017 4 3, dayOf 2017 4 4, dayOf 2017 5 1, dayOf 2017 5 29,
   dayOf 2017 5 30, dayOf 2017 10 2, dayOf 2017 10 3, dayOf 2017 10 4, dayOf 2017 10 5,
   dayOf 2017 10 6, dayOf 2018 1 1, dayOf 2018 2 15, dayOf 2018 2 16, dayOf 2018 2 19,
   dayOf 2018 2 20, dayOf 2018 2 21, dayOf 2018 4 5, dayOf 2018 4 6, dayOf 2018 4 30,
   dayOf 2018 5 1, dayOf 2018 6 18, dayOf 2018 9 24, dayOf 2018 10 1, dayOf 2018 10 2,
   dayOf 2018 10 3, dayOf 2018 10 4, dayOf 2018 10 5, dayOf 2018 12 31, dayOf 2019 1 1,
   dayOf 2019 2 4, dayOf 2019 2 5, dayOf 2019 2 6, dayOf 2019 2 7, dayOf 2019 2 8, dayOf 2019 4 5,
   dayOf 2019 5 1, dayOf 2019 5 2, dayOf 2019 5 3, dayOf 2019 6 7, dayOf 2019 9 13, dayOf 2019 10 1,
   dayOf 2019 10 2, dayOf 2019 10 3, dayOf 2019 10 4, dayOf 2019 10 7, dayOf 2020 1 1,
   dayOf 2020 1 24, dayOf 2020 1 27, dayOf 2020 1 28, dayOf 2020 1 29, dayOf 2020 1 30,
   dayOf 2020 4 6, dayOf 2020 5 1, dayOf 2020 5 4, dayOf 2020 5 5, dayOf 2020 6 25, dayOf 2020 6 26,
   dayOf 2020 10 1, dayOf 2020 10 2, dayOf 2020 10 5, dayOf 2020 10 6, dayOf 2020 10 7,
   dayOf 2020 10 8, dayOf 2021 1 1, dayOf 2021 2 11, dayOf 2021 2 12, dayOf 2021 2 15,
   dayOf 2021 2 16, dayOf 2021 2 17, dayOf 2021 4 5, dayOf 2021 5 3, dayOf 2021 6 14,
   dayOf 2021 9 20, dayOf 2021 9 21, dayOf 2021 10 1, dayOf 2021 10 4, dayOf 2021 10 5,
   dayOf 2021 10 6, dayOf 2021 10 7, dayOf 2022 1 3, dayOf 2022 2 1, dayOf 2022 2 2, dayOf 2022 2 3,
   dayOf 2022 2 4, dayOf 2022 4 5, dayOf 2022 6 3, dayOf 2022 10 3, dayOf 2022 10 4,
   dayOf 2022 10 5, dayOf 2023 1 2, dayOf 2023 1 23, dayOf 2023 1 24, dayOf 2023 1 25,
   dayOf 2023 1 26, dayOf 2023 1 27, dayOf 2023 4 5, dayOf 2023 5 1, dayOf 2023 6 22,
   dayOf 2023 9 29, dayOf 2023 10 2, dayOf 2023 10 3, dayOf 2023 10 4, dayOf 2023 10 5,
   dayOf 2024 1 1, dayOf 2024 2 12, dayOf 2024 2 13, dayOf 2024 2 14, dayOf 2024 2 15,
   dayOf 2024 4 4, dayOf 2024 5 1, dayOf 2024 6 10, dayOf 2024 9 17, dayOf 2024 10 1,
   dayOf 2024 10 2, dayOf 2024 10 3, dayOf 2024 10 4, dayOf 2025 1 1, dayOf 2025 1 29,
   dayOf 2025 1 30, dayOf 2025 1 31, dayOf 2025 2 3, dayOf 2025 4 4, dayOf 2025 5 1,
   dayOf 2025 10 1, dayOf 2025 10 2, dayOf 2025 10 3, dayOf 2025 10 4]

/-- `tz`, `exchange_calendar_xshg.py` line 500. -/
def zone : Tz := Zones.asiaShanghai

/-- `open_times`, `exchange_calendar_xshg.py` lines 501-503. -/
def openTimes : TimeTable := [(none, hm 9 31)]

/-- `close_times`, `exchange_calendar_xshg.py` lines 504-506. -/
def closeTimes : TimeTable := [(none, hm 15 0)]

/-- `precomputed_holidays`, `exchange_calendar_xshg.py` lines 508-510. -/
def adhoc : List Int := TC.Xshg.precomputedShanghaiHolidays

/-- `XSHGExchangeCalendar`, `exchange_calendar_xshg.py` lines 485-510. -/
def exchange : Exchange :=
  { adhoc := TC.Xshg.adhoc
    openTimes := TC.Xshg.openTimes
    closeTimes := TC.Xshg.closeTimes }

end TC.Xshg
