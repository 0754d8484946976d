import Verif.Model.Exchange
import Verif.Model.Zones

/-! `/repo/trading_calendars/exchange_calendar_xbom.py`, translated by `tools/gen_exchanges.py`. -/

namespace TC.Xbom

/-- `precomputed_bse_holidays`, `exchange_calendar_xbom.py` lines 7-327. -/
def precomputedBseHolidays : List Int :=
  [dayOf 1997 1 23, dayOf 1997 3 7, dayOf 1997 3 24, dayOf 1997 4 8, dayOf 1997 4 14,
   dayOf 1997 4 16, dayOf 1997 4 18, dayOf 1997 5 1, dayOf 1997 5 8, dayOf 1997 8 15,
   dayOf 1997 8 18, dayOf 1997 8 25, dayOf 1997 10 2, dayOf 1997 10 28, dayOf 1997 10 29,
   dayOf 1997 10 31, dayOf 1997 12 25, dayOf 1998 4 9, dayOf 1998 4 14, dayOf 1998 4 28,
   dayOf 1998 12 25, dayOf 1999 1 1, dayOf 1999 1 20, dayOf 1999 1 26, dayOf 1999 3 2,
   dayOf 1999 3 18, dayOf 1999 3 25, dayOf 1999 3 29, dayOf 1999 4 2, dayOf 1999 4 14,
   dayOf 1999 4 27, dayOf 1999 4 30, dayOf 1999 9 13, dayOf 1999 10 19, dayOf 1999 11 8,
   dayOf 1999 11 10, dayOf 1999 11 23, dayOf 1999 12 31, dayOf 2000 1 26, dayOf 2000 3 17,
   dayOf 2000 3 20, dayOf 2000 4 14, dayOf 2000 4 21, dayOf 2000 5 1, dayOf 2000 8 15,
   dayOf 2000 9 1, dayOf 2000 10 2, dayOf 2000 12 25, dayOf 2001 1 1, dayOf 2001 1 26,
   dayOf 2001 3 6, dayOf 2001 4 5, dayOf 2001 4 13, dayOf 2001 5 1, dayOf 2001 8 15,
   dayOf 2001 8 22, dayOf 2001 10 2, dayOf 2001 10 26, dayOf 2001 11 16, dayOf 2001 11 30,
   dayOf 2001 12 17, dayOf 2001 12 25, dayOf 2002 3 25, dayOf 2002 3 29, dayOf 2002 5 1,
   dayOf 2002 8 15, dayOf 2002 9 10, dayOf 2002 10 2, dayOf 2002 10 15, dayOf 2002 11 6,
   dayOf 2002 11 19, dayOf 2002 12 25, dayOf 2003 2 13, dayOf 2003 3 14, dayOf 2003 3 18,
   dayOf 2003 4 14, dayOf 2003 4 18, dayOf 2003 5 1, dayOf 2003 8 15, dayOf 2003 10 2,
   dayOf 2003 11 26, dayOf 2003 12 25, dayOf 2004 1 1, dayOf 2004 1 26, dayOf 2004 2 2,
   dayOf 2004 3 2, dayOf 2004 4 9, dayOf 2004 4 14, dayOf 2004 4 26, dayOf 2004 10 13,
   dayOf 2004 10 22, dayOf 2004 11 15, dayOf 2004 11 26, dayOf 2005 1 21, dayOf 2005 1 26,
   dayOf 2005 3 25, dayOf 2005 4 14, dayOf 2005 7 28, dayOf 2005 8 15, dayOf 2005 9 7,
   dayOf 2005 10 12, dayOf 2005 11 3, dayOf 2005 11 4, dayOf 2005 11 15, dayOf 2006 1 11,
   dayOf 2006 1 26, dayOf 2006 2 9, dayOf 2006 3 15, dayOf 2006 4 6, dayOf 2006 4 11,
   dayOf 2006 4 14, dayOf 2006 5 1, dayOf 2006 8 15, dayOf 2006 10 2, dayOf 2006 10 24,
   dayOf 2006 10 25, dayOf 2006 12 25, dayOf 2007 1 1, dayOf 2007 1 26, dayOf 2007 1 30,
   dayOf 2007 2 16, dayOf 2007 3 27, dayOf 2007 4 6, dayOf 2007 5 1, dayOf 2007 5 2,
   dayOf 2007 8 15, dayOf 2007 10 2, dayOf 2007 12 21, dayOf 2007 12 25, dayOf 2008 3 6,
   dayOf 2008 3 20, dayOf 2008 3 21, dayOf 2008 4 14, dayOf 2008 4 18, dayOf 2008 5 1,
   dayOf 2008 5 19, dayOf 2008 8 15, dayOf 2008 9 3, dayOf 2008 10 2, dayOf 2008 10 9,
   dayOf 2008 10 30, dayOf 2008 11 13, dayOf 2008 11 27, dayOf 2008 12 9, dayOf 2008 12 25,
   dayOf 2009 1 8, dayOf 2009 1 26, dayOf 2009 2 23, dayOf 2009 3 10, dayOf 2009 3 11,
   dayOf 2009 4 3, dayOf 2009 4 7, dayOf 2009 4 10, dayOf 2009 4 14, dayOf 2009 4 30,
   dayOf 2009 5 1, dayOf 2009 9 21, dayOf 2009 9 28, dayOf 2009 10 2, dayOf 2009 10 13,
   dayOf 2009 10 19, dayOf 2009 11 2, dayOf 2009 12 25, dayOf 2009 12 28, dayOf 2010 1 1,
   dayOf 2010 1 26, dayOf 2010 2 12, dayOf 2010 3 1, dayOf 2010 3 24, dayOf 2010 4 2,
   dayOf 2010 4 14, dayOf 2010 9 10, dayOf 2010 11 17, dayOf 2010 12 17, dayOf 2011 1 26,
   dayOf 2011 3 2, dayOf 2011 4 12, dayOf 2011 4 14, dayOf 2011 4 22, dayOf 2011 8 15,
   dayOf 2011 8 31, dayOf 2011 9 1, dayOf 2011 10 6, dayOf 2011 10 27, dayOf 2011 11 7,
   dayOf 2011 11 10, dayOf 2011 12 6, dayOf 2012 1 26, dayOf 2012 2 20, dayOf 2012 3 8,
   dayOf 2012 4 5, dayOf 2012 4 6, dayOf 2012 5 1, dayOf 2012 8 15, dayOf 2012 8 20,
   dayOf 2012 9 19, dayOf 2012 10 2, dayOf 2012 10 24, dayOf 2012 11 14, dayOf 2012 11 28,
   dayOf 2012 12 25, dayOf 2013 3 27, dayOf 2013 3 29, dayOf 2013 4 19, dayOf 2013 4 24,
   dayOf 2013 5 1, dayOf 2013 8 9, dayOf 2013 8 15, dayOf 2013 9 9, dayOf 2013 10 2,
   dayOf 2013 10 16, dayOf 2013 11 4, dayOf 2013 11 15, dayOf 2013 12 25, dayOf 2014 2 27,
   dayOf 2014 3 17, dayOf 2014 4 8, dayOf 2014 4 14, dayOf 2014 4 18, dayOf 2014 4 24,
   dayOf 2014 5 1, dayOf 2014 7 29, dayOf 2014 8 15, dayOf 2014 8 29, dayOf 2014 10 2,
   dayOf 2014 10 3, dayOf 2014 10 6, dayOf 2014 10 15, dayOf 2014 10 24, dayOf 2014 11 4,
   dayOf 2014 11 6, dayOf 2014 12 25, dayOf 2015 1 26, dayOf 2015 2 17, dayOf 2015 3 6,
   dayOf 2015 4 2, dayOf 2015 4 3, dayOf 2015 4 14, dayOf 2015 5 1, dayOf 2015 9 17,
   dayOf 2015 9 25, dayOf 2015 10 2, dayOf 2015 10 22, dayOf 2015 11 12, dayOf 2015 11 25,
   dayOf 2015 12 25, dayOf 2016 1 26, dayOf 2016 3 7, dayOf 2016 3 24, dayOf 2016 3 25,
   dayOf 2016 4 14, dayOf 2016 4 15, dayOf 2016 4 19, dayOf 2016 7 6, dayOf 2016 8 15,
   dayOf 2016 9 5, dayOf 2016 9 13, dayOf 2016 10 11, dayOf 2016 10 12, dayOf 2016 10 31,
   dayOf 2016 11 14, dayOf 2017 1 26, dayOf 2017 2 24, dayOf 2017 3 13, dayOf 2017 4 4,
   dayOf 2017 4 14, dayOf 2017 5 1, dayOf 2017 6 26, dayOf 2017 8 15, dayOf 2017 8 25,
   dayOf 2017 10 2, dayOf 2017 10 20, dayOf 2017 12 25, dayOf 2018 1 26, dayOf 2018 2 13,
   dayOf 2018 3 2, dayOf 2018 3 29, dayOf 2018 3 30, dayOf 2018 5 1, dayOf 2018 8 15,
   dayOf 2018 8 22, dayOf 2018 9 13, dayOf 2018 9 20, dayOf 2018 10 2, dayOf 2018 10 18,
   dayOf 2018 11 8, dayOf 2018 11 23, dayOf 2018 12 25, dayOf 2019 1 26, dayOf 2019 3 2,
   dayOf 2019 3 4, dayOf 2019 3 21, dayOf 2019 4 17, dayOf 2019 4 19, dayOf 2019 4 29,
   dayOf 2019 5 1, dayOf 2019 6 5, dayOf 2019 8 12, dayOf 2019 8 15, dayOf 2019 9 2,
   dayOf 2019 9 10, dayOf 2019 10 2, dayOf 2019 10 8, dayOf 2019 10 21, dayOf 2019 10 28,
   dayOf 2019 11 12, dayOf 2019 12 25, dayOf 2020 2 21, dayOf 2020 3 10, dayOf 2020 4 2,
   dayOf 2020 4 6, dayOf 2020 4 10, dayOf 2020 4 14, dayOf 2020 5 1, dayOf 2020 7 31,
   dayOf 2020 10 2, dayOf 2020 11 16, dayOf 2020 11 30, dayOf 2020 12 25]

/-- `tz`, `exchange_calendar_xbom.py` line 343. -/
def zone : Tz := Zones.asiaCalcutta

/-- `open_times`, `exchange_calendar_xbom.py` lines 344-346. -/
def openTimes : TimeTable := [(none, hm 9 16)]

/-- `close_times`, `exchange_calendar_xbom.py` lines 347-349. -/
def closeTimes : TimeTable := [(none, hm 15 30)]

/-- `precomputed_holidays`, `exchange_calendar_xbom.py` lines 351-353. -/
def adhoc : List Int := TC.Xbom.precomputedBseHolidays

/-- `XBOMExchangeCalendar`, `exchange_calendar_xbom.py` lines 330-353. -/
def exchange : Exchange :=
  { adhoc := TC.Xbom.adhoc
    openTimes := TC.Xbom.openTimes
    closeTimes := TC.Xbom.closeTimes }

end TC.Xbom
