import Verif.Model.Exchange
import Verif.Model.Zones

/-! `/repo/trading_calendars/exchange_calendar_xses.py`, translated by `tools/gen_exchanges.py`. -/

namespace TC.Xses

/-- `precomputed_ses_holidays`, `exchange_calendar_xses.py` lines 6-351. -/
def precomputedSesHolidays : List Int :=
  [dayOf 1986 1 1, dayOf 1986 2 10, dayOf 1986 2 11, dayOf 1986 3 28, dayOf 1986 5 1,
   dayOf 1986 5 23, dayOf 1986 6 9, dayOf 1986 12 25, dayOf 1987 1 1, dayOf 1987 1 29,
   dayOf 1987 1 30, dayOf 1987 5 1, dayOf 1987 5 12, dayOf 1987 5 29, dayOf 1987 8 5,
   dayOf 1987 8 10, dayOf 1987 10 21, dayOf 1987 12 25, dayOf 1988 1 1, dayOf 1988 2 17,
   dayOf 1988 2 18, dayOf 1988 4 1, dayOf 1988 5 2, dayOf 1988 5 17, dayOf 1988 5 30,
   dayOf 1988 7 25, dayOf 1988 8 9, dayOf 1988 11 8, dayOf 1988 12 26, dayOf 1989 1 2,
   dayOf 1989 2 6, dayOf 1989 2 7, dayOf 1989 3 24, dayOf 1989 5 1, dayOf 1989 5 8, dayOf 1989 5 19,
   dayOf 1989 7 13, dayOf 1989 8 9, dayOf 1989 12 25, dayOf 1990 1 1, dayOf 1990 4 13,
   dayOf 1990 4 26, dayOf 1990 5 1, dayOf 1990 5 9, dayOf 1990 7 3, dayOf 1990 8 9,
   dayOf 1990 12 25, dayOf 1991 1 1, dayOf 1991 1 15, dayOf 1991 3 29, dayOf 1991 4 16,
   dayOf 1991 5 1, dayOf 1991 5 28, dayOf 1991 6 24, dayOf 1991 8 9, dayOf 1991 11 5,
   dayOf 1991 12 24, dayOf 1991 12 25, dayOf 1991 12 31, dayOf 1992 1 1, dayOf 1992 2 4,
   dayOf 1992 2 5, dayOf 1992 4 6, dayOf 1992 4 17, dayOf 1992 5 1, dayOf 1992 6 11,
   dayOf 1992 8 10, dayOf 1992 12 25, dayOf 1993 1 1, dayOf 1993 1 25, dayOf 1993 3 25,
   dayOf 1993 4 9, dayOf 1993 5 6, dayOf 1993 6 1, dayOf 1993 8 9, dayOf 1994 1 10, dayOf 1994 1 11,
   dayOf 1994 2 1, dayOf 1994 2 11, dayOf 1994 3 14, dayOf 1994 4 1, dayOf 1994 5 2,
   dayOf 1994 5 25, dayOf 1994 8 9, dayOf 1994 10 13, dayOf 1994 11 2, dayOf 1994 12 26,
   dayOf 1995 1 2, dayOf 1995 1 31, dayOf 1995 2 1, dayOf 1995 3 3, dayOf 1995 4 14, dayOf 1995 5 1,
   dayOf 1995 5 10, dayOf 1995 5 15, dayOf 1995 8 9, dayOf 1995 10 23, dayOf 1995 12 25,
   dayOf 1996 1 1, dayOf 1996 2 19, dayOf 1996 2 20, dayOf 1996 2 21, dayOf 1996 4 5,
   dayOf 1996 5 1, dayOf 1996 5 31, dayOf 1996 8 9, dayOf 1996 12 25, dayOf 1997 1 1,
   dayOf 1997 2 7, dayOf 1997 2 10, dayOf 1997 3 28, dayOf 1997 4 18, dayOf 1997 5 1,
   dayOf 1997 5 21, dayOf 1997 12 25, dayOf 1998 1 1, dayOf 1998 1 28, dayOf 1998 1 29,
   dayOf 1998 1 30, dayOf 1998 4 7, dayOf 1998 4 10, dayOf 1998 5 1, dayOf 1998 5 11,
   dayOf 1998 8 10, dayOf 1998 10 19, dayOf 1998 12 25, dayOf 1999 1 1, dayOf 1999 1 19,
   dayOf 1999 2 16, dayOf 1999 2 17, dayOf 1999 3 29, dayOf 1999 4 2, dayOf 1999 8 9,
   dayOf 1999 11 8, dayOf 1999 12 31, dayOf 2000 2 7, dayOf 2000 3 16, dayOf 2000 4 21,
   dayOf 2000 5 1, dayOf 2000 5 18, dayOf 2000 8 9, dayOf 2000 10 26, dayOf 2000 12 25,
   dayOf 2000 12 27, dayOf 2001 1 1, dayOf 2001 1 24, dayOf 2001 1 25, dayOf 2001 3 6,
   dayOf 2001 4 13, dayOf 2001 5 1, dayOf 2001 5 7, dayOf 2001 8 9, dayOf 2001 11 14,
   dayOf 2001 12 17, dayOf 2001 12 25, dayOf 2002 1 1, dayOf 2002 2 12, dayOf 2002 2 13,
   dayOf 2002 3 29, dayOf 2002 5 1, dayOf 2002 5 27, dayOf 2002 8 9, dayOf 2002 11 4,
   dayOf 2002 12 6, dayOf 2002 12 25, dayOf 2003 1 1, dayOf 2003 2 3, dayOf 2003 2 12,
   dayOf 2003 4 18, dayOf 2003 5 1, dayOf 2003 5 15, dayOf 2003 10 24, dayOf 2003 11 25,
   dayOf 2003 12 25, dayOf 2004 1 1, dayOf 2004 1 22, dayOf 2004 1 23, dayOf 2004 2 2,
   dayOf 2004 4 9, dayOf 2004 6 2, dayOf 2004 8 9, dayOf 2004 11 11, dayOf 2004 11 15,
   dayOf 2005 1 21, dayOf 2005 2 9, dayOf 2005 2 10, dayOf 2005 3 25, dayOf 2005 5 2,
   dayOf 2005 5 23, dayOf 2005 8 9, dayOf 2005 11 1, dayOf 2005 11 3, dayOf 2005 12 26,
   dayOf 2006 1 2, dayOf 2006 1 10, dayOf 2006 1 30, dayOf 2006 1 31, dayOf 2006 4 14,
   dayOf 2006 5 1, dayOf 2006 5 12, dayOf 2006 8 9, dayOf 2006 10 24, dayOf 2006 12 25,
   dayOf 2007 1 1, dayOf 2007 1 2, dayOf 2007 2 19, dayOf 2007 2 20, dayOf 2007 4 6, dayOf 2007 5 1,
   dayOf 2007 5 31, dayOf 2007 8 9, dayOf 2007 11 8, dayOf 2007 12 20, dayOf 2007 12 25,
   dayOf 2008 1 1, dayOf 2008 2 7, dayOf 2008 2 8, dayOf 2008 3 21, dayOf 2008 5 1, dayOf 2008 5 19,
   dayOf 2008 10 1, dayOf 2008 10 27, dayOf 2008 12 8, dayOf 2008 12 25, dayOf 2009 1 1,
   dayOf 2009 1 26, dayOf 2009 1 27, dayOf 2009 4 10, dayOf 2009 5 1, dayOf 2009 8 10,
   dayOf 2009 9 21, dayOf 2009 11 27, dayOf 2009 12 25, dayOf 2010 1 1, dayOf 2010 2 15,
   dayOf 2010 2 16, dayOf 2010 4 2, dayOf 2010 5 28, dayOf 2010 8 9, dayOf 2010 9 10,
   dayOf 2010 11 5, dayOf 2010 11 17, dayOf 2011 2 3, dayOf 2011 2 4, dayOf 2011 4 22,
   dayOf 2011 5 2, dayOf 2011 5 17, dayOf 2011 8 9, dayOf 2011 8 30, dayOf 2011 10 26,
   dayOf 2011 11 7, dayOf 2011 12 26, dayOf 2012 1 2, dayOf 2012 1 23, dayOf 2012 1 24,
   dayOf 2012 4 6, dayOf 2012 5 1, dayOf 2012 8 9, dayOf 2012 8 20, dayOf 2012 10 26,
   dayOf 2012 11 13, dayOf 2012 12 25, dayOf 2013 1 1, dayOf 2013 2 11, dayOf 2013 2 12,
   dayOf 2013 3 29, dayOf 2013 5 1, dayOf 2013 5 24, dayOf 2013 8 8, dayOf 2013 8 9,
   dayOf 2013 10 15, dayOf 2013 12 25, dayOf 2014 1 1, dayOf 2014 1 31, dayOf 2014 4 18,
   dayOf 2014 5 1, dayOf 2014 5 13, dayOf 2014 7 28, dayOf 2014 10 6, dayOf 2014 10 22,
   dayOf 2014 12 25, dayOf 2015 1 1, dayOf 2015 2 19, dayOf 2015 2 20, dayOf 2015 4 3,
   dayOf 2015 5 1, dayOf 2015 6 1, dayOf 2015 7 17, dayOf 2015 8 7, dayOf 2015 8 10,
   dayOf 2015 9 11, dayOf 2015 9 24, dayOf 2015 11 10, dayOf 2015 12 25, dayOf 2016 1 1,
   dayOf 2016 2 8, dayOf 2016 2 9, dayOf 2016 3 25, dayOf 2016 5 2, dayOf 2016 7 6, dayOf 2016 8 9,
   dayOf 2016 9 12, dayOf 2016 12 26, dayOf 2017 1 2, dayOf 2017 1 30, dayOf 2017 4 14,
   dayOf 2017 5 1, dayOf 2017 5 10, dayOf 2017 6 26, dayOf 2017 8 9, dayOf 2017 9 1,
   dayOf 2017 10 18, dayOf 2017 12 25, dayOf 2018 1 1, dayOf 2018 2 16, dayOf 2018 3 30,
   dayOf 2018 5 1, dayOf 2018 5 29, dayOf 2018 6 15, dayOf 2018 8 9, dayOf 2018 8 22,
   dayOf 2018 11 6, dayOf 2018 12 25, dayOf 2019 1 1, dayOf 2019 2 5, dayOf 2019 2 6,
   dayOf 2019 4 19, dayOf 2019 5 1, dayOf 2019 5 20, dayOf 2019 6 5, dayOf 2019 8 9,
   dayOf 2019 8 12, dayOf 2019 10 28, dayOf 2019 12 25, dayOf 2020 1 1, dayOf 2020 1 27,
   dayOf 2020 4 10, dayOf 2020 5 1, dayOf 2020 5 7, dayOf 2020 5 25, dayOf 2020 7 10,
   dayOf 2020 7 31, dayOf 2020 8 10, dayOf 2020 12 25]

/-- `tz`, `exchange_calendar_xses.py` line 371. -/
def zone : Tz := Zones.asiaSingapore

/-- `open_times`, `exchange_calendar_xses.py` lines 372-374. -/
def openTimes : TimeTable := [(none, hm 9 1)]

/-- `close_times`, `exchange_calendar_xses.py` lines 375-377. -/
def closeTimes : TimeTable := [(none, hm 17 0)]

/-- `precomputed_holidays`, `exchange_calendar_xses.py` lines 379-381. -/
def adhoc : List Int := TC.Xses.precomputedSesHolidays

/-- `XSESExchangeCalendar`, `exchange_calendar_xses.py` lines 354-381. -/
def exchange : Exchange :=
  { adhoc := TC.Xses.adhoc
    openTimes := TC.Xses.openTimes
    closeTimes := TC.Xses.closeTimes }

end TC.Xses
