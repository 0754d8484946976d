import Verif.Model.Exchange
import Verif.Model.Zones

/-! `/repo/trading_calendars/exchange_calendar_xkrx.py`, translated by `tools/gen_exchanges.py`. -/

namespace TC.Xkrx

/-- `precomputed_krx_holidays`, `exchange_calendar_xkrx.py` lines 23-537. -/
def precomputedKrxHolidays : List Int :=
  [dayOf 1986 1 1, dayOf 1986 1 2, dayOf 1986 1 3, dayOf 1986 3 10, dayOf 1986 5 5, dayOf 1986 5 16,
   dayOf 1986 6 6, dayOf 1986 7 17, dayOf 1986 8 15, dayOf 1986 9 18, dayOf 1986 10 1,
   dayOf 1986 10 3, dayOf 1986 10 9, dayOf 1986 12 25, dayOf 1986 12 29, dayOf 1986 12 30,
   dayOf 1986 12 31, dayOf 1987 1 1, dayOf 1987 1 2, dayOf 1987 1 29, dayOf 1987 3 10,
   dayOf 1987 5 5, dayOf 1987 7 17, dayOf 1987 10 1, dayOf 1987 10 7, dayOf 1987 10 8,
   dayOf 1987 10 9, dayOf 1987 12 25, dayOf 1987 12 28, dayOf 1987 12 29, dayOf 1987 12 30,
   dayOf 1987 12 31, dayOf 1988 1 1, dayOf 1988 2 18, dayOf 1988 3 1, dayOf 1988 3 10,
   dayOf 1988 4 5, dayOf 1988 5 5, dayOf 1988 5 23, dayOf 1988 6 6, dayOf 1988 8 15,
   dayOf 1988 9 26, dayOf 1988 10 3, dayOf 1988 12 27, dayOf 1988 12 28, dayOf 1988 12 29,
   dayOf 1988 12 30, dayOf 1989 1 2, dayOf 1989 1 3, dayOf 1989 2 6, dayOf 1989 3 1,
   dayOf 1989 3 10, dayOf 1989 4 5, dayOf 1989 5 5, dayOf 1989 5 12, dayOf 1989 6 6,
   dayOf 1989 7 17, dayOf 1989 8 15, dayOf 1989 9 14, dayOf 1989 9 15, dayOf 1989 10 12,
   dayOf 1989 12 25, dayOf 1990 1 1, dayOf 1990 1 2, dayOf 1990 1 26, dayOf 1990 3 1,
   dayOf 1990 4 5, dayOf 1990 5 2, dayOf 1990 6 6, dayOf 1990 7 17, dayOf 1990 8 15,
   dayOf 1990 10 1, dayOf 1990 10 2, dayOf 1990 10 3, dayOf 1990 10 4, dayOf 1990 10 9,
   dayOf 1990 12 25, dayOf 1990 12 27, dayOf 1990 12 28, dayOf 1990 12 31, dayOf 1991 1 2,
   dayOf 1991 2 14, dayOf 1991 2 15, dayOf 1991 3 1, dayOf 1991 4 5, dayOf 1991 5 21,
   dayOf 1991 6 6, dayOf 1991 7 17, dayOf 1991 8 15, dayOf 1991 9 23, dayOf 1991 10 3,
   dayOf 1991 12 25, dayOf 1991 12 27, dayOf 1991 12 30, dayOf 1991 12 31, dayOf 1992 1 1,
   dayOf 1992 1 2, dayOf 1992 2 3, dayOf 1992 2 4, dayOf 1992 2 5, dayOf 1992 3 10, dayOf 1992 5 5,
   dayOf 1992 7 17, dayOf 1992 9 10, dayOf 1992 9 11, dayOf 1992 12 25, dayOf 1992 12 28,
   dayOf 1992 12 29, dayOf 1992 12 30, dayOf 1992 12 31, dayOf 1993 1 1, dayOf 1993 1 22,
   dayOf 1993 3 1, dayOf 1993 3 10, dayOf 1993 4 5, dayOf 1993 5 5, dayOf 1993 5 28, dayOf 1993 7 7,
   dayOf 1993 9 29, dayOf 1993 9 30, dayOf 1993 10 1, dayOf 1994 1 3, dayOf 1994 2 9,
   dayOf 1994 2 10, dayOf 1994 2 11, dayOf 1994 2 14, dayOf 1994 3 1, dayOf 1994 4 5,
   dayOf 1994 5 5, dayOf 1994 5 18, dayOf 1994 5 20, dayOf 1994 6 6, dayOf 1994 8 15,
   dayOf 1994 9 19, dayOf 1994 9 20, dayOf 1994 9 21, dayOf 1994 10 3, dayOf 1994 12 29,
   dayOf 1994 12 30, dayOf 1995 1 2, dayOf 1995 1 30, dayOf 1995 1 31, dayOf 1995 2 1,
   dayOf 1995 3 1, dayOf 1995 4 5, dayOf 1995 5 1, dayOf 1995 5 5, dayOf 1995 6 6, dayOf 1995 7 17,
   dayOf 1995 8 15, dayOf 1995 9 8, dayOf 1995 10 3, dayOf 1995 12 25, dayOf 1995 12 29,
   dayOf 1996 1 1, dayOf 1996 1 2, dayOf 1996 3 1, dayOf 1996 4 5, dayOf 1996 5 1, dayOf 1996 5 24,
   dayOf 1996 6 6, dayOf 1996 7 17, dayOf 1996 8 15, dayOf 1996 9 26, dayOf 1996 9 27,
   dayOf 1996 10 3, dayOf 1996 12 25, dayOf 1996 12 30, dayOf 1996 12 31, dayOf 1997 1 1,
   dayOf 1997 2 7, dayOf 1997 5 5, dayOf 1997 6 6, dayOf 1997 7 17, dayOf 1997 8 15,
   dayOf 1997 9 15, dayOf 1997 9 16, dayOf 1997 9 17, dayOf 1997 10 3, dayOf 1997 12 25,
   dayOf 1997 12 30, dayOf 1997 12 31, dayOf 1998 1 1, dayOf 1998 1 2, dayOf 1998 1 27,
   dayOf 1998 1 28, dayOf 1998 1 29, dayOf 1998 5 1, dayOf 1998 5 5, dayOf 1998 7 17,
   dayOf 1998 10 5, dayOf 1998 10 6, dayOf 1998 12 25, dayOf 1998 12 29, dayOf 1998 12 30,
   dayOf 1998 12 31, dayOf 1999 1 1, dayOf 1999 2 15, dayOf 1999 2 16, dayOf 1999 2 17,
   dayOf 1999 3 1, dayOf 1999 4 5, dayOf 1999 5 5, dayOf 1999 9 23, dayOf 1999 9 24,
   dayOf 1999 12 29, dayOf 1999 12 30, dayOf 1999 12 31, dayOf 2000 1 3, dayOf 2000 2 4,
   dayOf 2000 3 1, dayOf 2000 4 5, dayOf 2000 4 13, dayOf 2000 5 1, dayOf 2000 5 5, dayOf 2000 5 11,
   dayOf 2000 6 6, dayOf 2000 7 17, dayOf 2000 8 15, dayOf 2000 9 11, dayOf 2000 9 12,
   dayOf 2000 9 13, dayOf 2000 10 3, dayOf 2000 12 25, dayOf 2000 12 27, dayOf 2000 12 28,
   dayOf 2000 12 29, dayOf 2001 1 1, dayOf 2001 1 23, dayOf 2001 1 24, dayOf 2001 1 25,
   dayOf 2001 3 1, dayOf 2001 4 5, dayOf 2001 5 1, dayOf 2001 6 6, dayOf 2001 7 17, dayOf 2001 8 15,
   dayOf 2001 10 1, dayOf 2001 10 2, dayOf 2001 10 3, dayOf 2001 12 25, dayOf 2001 12 31,
   dayOf 2002 1 1, dayOf 2002 2 11, dayOf 2002 2 12, dayOf 2002 2 13, dayOf 2002 3 1,
   dayOf 2002 4 5, dayOf 2002 5 1, dayOf 2002 6 6, dayOf 2002 6 13, dayOf 2002 7 1, dayOf 2002 7 17,
   dayOf 2002 8 15, dayOf 2002 9 20, dayOf 2002 10 3, dayOf 2002 12 19, dayOf 2002 12 25,
   dayOf 2002 12 31, dayOf 2003 1 1, dayOf 2003 1 31, dayOf 2003 5 1, dayOf 2003 5 5,
   dayOf 2003 5 8, dayOf 2003 6 6, dayOf 2003 7 17, dayOf 2003 8 15, dayOf 2003 9 10,
   dayOf 2003 9 11, dayOf 2003 9 12, dayOf 2003 10 3, dayOf 2003 12 25, dayOf 2003 12 31,
   dayOf 2004 1 1, dayOf 2004 1 21, dayOf 2004 1 22, dayOf 2004 1 23, dayOf 2004 3 1,
   dayOf 2004 4 5, dayOf 2004 4 15, dayOf 2004 5 5, dayOf 2004 5 26, dayOf 2004 9 27,
   dayOf 2004 9 28, dayOf 2004 9 29, dayOf 2004 12 31, dayOf 2005 2 8, dayOf 2005 2 9,
   dayOf 2005 2 10, dayOf 2005 3 1, dayOf 2005 4 5, dayOf 2005 5 5, dayOf 2005 6 6, dayOf 2005 8 15,
   dayOf 2005 9 19, dayOf 2005 10 3, dayOf 2005 12 30, dayOf 2006 1 30, dayOf 2006 3 1,
   dayOf 2006 5 1, dayOf 2006 5 5, dayOf 2006 5 31, dayOf 2006 6 6, dayOf 2006 7 17,
   dayOf 2006 8 15, dayOf 2006 10 3, dayOf 2006 10 5, dayOf 2006 10 6, dayOf 2006 12 25,
   dayOf 2006 12 29, dayOf 2007 1 1, dayOf 2007 2 19, dayOf 2007 3 1, dayOf 2007 5 1,
   dayOf 2007 5 24, dayOf 2007 6 6, dayOf 2007 7 17, dayOf 2007 8 15, dayOf 2007 9 24,
   dayOf 2007 9 25, dayOf 2007 9 26, dayOf 2007 10 3, dayOf 2007 12 19, dayOf 2007 12 25,
   dayOf 2007 12 31, dayOf 2008 1 1, dayOf 2008 2 6, dayOf 2008 2 7, dayOf 2008 2 8, dayOf 2008 4 9,
   dayOf 2008 5 1, dayOf 2008 5 5, dayOf 2008 5 12, dayOf 2008 6 6, dayOf 2008 8 15,
   dayOf 2008 9 15, dayOf 2008 10 3, dayOf 2008 12 25, dayOf 2008 12 31, dayOf 2009 1 1,
   dayOf 2009 1 26, dayOf 2009 1 27, dayOf 2009 5 1, dayOf 2009 5 5, dayOf 2009 10 2,
   dayOf 2009 12 25, dayOf 2009 12 31, dayOf 2010 1 1, dayOf 2010 2 15, dayOf 2010 3 1,
   dayOf 2010 5 5, dayOf 2010 5 21, dayOf 2010 6 2, dayOf 2010 9 21, dayOf 2010 9 22,
   dayOf 2010 9 23, dayOf 2010 12 31, dayOf 2011 2 2, dayOf 2011 2 3, dayOf 2011 2 4,
   dayOf 2011 3 1, dayOf 2011 5 5, dayOf 2011 5 10, dayOf 2011 6 6, dayOf 2011 8 15,
   dayOf 2011 9 12, dayOf 2011 9 13, dayOf 2011 10 3, dayOf 2011 12 30, dayOf 2012 1 23,
   dayOf 2012 1 24, dayOf 2012 3 1, dayOf 2012 4 11, dayOf 2012 5 1, dayOf 2012 5 28,
   dayOf 2012 6 6, dayOf 2012 8 15, dayOf 2012 10 1, dayOf 2012 10 3, dayOf 2012 12 19,
   dayOf 2012 12 25, dayOf 2012 12 31, dayOf 2013 1 1, dayOf 2013 2 11, dayOf 2013 3 1,
   dayOf 2013 5 1, dayOf 2013 5 17, dayOf 2013 6 6, dayOf 2013 8 15, dayOf 2013 9 18,
   dayOf 2013 9 19, dayOf 2013 9 20, dayOf 2013 10 3, dayOf 2013 10 9, dayOf 2013 12 25,
   dayOf 2013 12 31, dayOf 2014 1 1, dayOf 2014 1 30, dayOf 2014 1 31, dayOf 2014 5 1,
   dayOf 2014 5 5, dayOf 2014 5 6, dayOf 2014 6 4, dayOf 2014 6 6, dayOf 2014 8 15, dayOf 2014 9 8,
   dayOf 2014 9 9, dayOf 2014 9 10, dayOf 2014 10 3, dayOf 2014 10 9, dayOf 2014 12 25,
   dayOf 2014 12 31, dayOf 2015 1 1, dayOf 2015 2 18, dayOf 2015 2 19, dayOf 2015 2 20,
   dayOf 2015 5 1, dayOf 2015 5 5, dayOf 2015 5 25, dayOf 2015 8 14, dayOf 2015 9 28,
   dayOf 2015 9 29, dayOf 2015 10 9, dayOf 2015 12 25, dayOf 2015 12 31, dayOf 2016 1 1,
   dayOf 2016 2 8, dayOf 2016 2 9, dayOf 2016 2 10, dayOf 2016 3 1, dayOf 2016 4 13, dayOf 2016 5 5,
   dayOf 2016 5 6, dayOf 2016 6 6, dayOf 2016 8 15, dayOf 2016 9 14, dayOf 2016 9 15,
   dayOf 2016 9 16, dayOf 2016 10 3, dayOf 2016 12 30, dayOf 2017 1 27, dayOf 2017 1 30,
   dayOf 2017 3 1, dayOf 2017 5 1, dayOf 2017 5 3, dayOf 2017 5 5, dayOf 2017 5 9, dayOf 2017 6 6,
   dayOf 2017 8 15, dayOf 2017 10 2, dayOf 2017 10 3, dayOf 2017 10 4, dayOf 2017 10 5,
   dayOf 2017 10 6, dayOf 2017 10 9, dayOf 2017 12 25, dayOf 2017 12 29, dayOf 2018 1 1,
   dayOf 2018 2 15, dayOf 2018 2 16, dayOf 2018 3 1, dayOf 2018 5 1, dayOf 2018 5 7,
   dayOf 2018 5 22, dayOf 2018 6 6, dayOf 2018 6 13, dayOf 2018 8 15, dayOf 2018 9 24,
   dayOf 2018 9 25, dayOf 2018 9 26, dayOf 2018 10 3, dayOf 2018 10 9, dayOf 2018 12 25,
   dayOf 2018 12 31, dayOf 2019 1 1, dayOf 2019 2 4, dayOf 2019 2 5, dayOf 2019 2 6, dayOf 2019 3 1,
   dayOf 2019 5 1, dayOf 2019 5 6, dayOf 2019 6 6, dayOf 2019 8 15, dayOf 2019 9 12,
   dayOf 2019 9 13, dayOf 2019 10 3, dayOf 2019 10 9, dayOf 2019 12 25, dayOf 2019 12 31,
   dayOf 2020 1 1, dayOf 2020 1 24, dayOf 2020 1 27, dayOf 2020 4 15, dayOf 2020 4 30,
   dayOf 2020 5 1, dayOf 2020 5 5, dayOf 2020 8 17, dayOf 2020 9 30, dayOf 2020 10 1,
   dayOf 2020 10 2, dayOf 2020 10 9, dayOf 2020 12 25, dayOf 2020 12 31, dayOf 2021 1 1,
   dayOf 2021 2 11, dayOf 2021 2 12, dayOf 2021 3 1, dayOf 2021 5 5, dayOf 2021 5 19,
   dayOf 2021 9 20, dayOf 2021 9 21, dayOf 2021 9 22, dayOf 2021 12 31]

/-- `tz`, `exchange_calendar_xkrx.py` line 569. -/
def zone : Tz := Zones.asiaSeoul

/-- `open_times`, `exchange_calendar_xkrx.py` lines 571-573. -/
def openTimes : TimeTable := [(none, hm 9 1)]

/-- `close_times`, `exchange_calendar_xkrx.py` lines 574-576. -/
def closeTimes : TimeTable := [(none, hm 15 30)]

/-- `precomputed_holidays`, `exchange_calendar_xkrx.py` lines 586-588. -/
def adhoc : List Int := TC.Xkrx.precomputedKrxHolidays

/-- `XKRXExchangeCalendar`, `exchange_calendar_xkrx.py` lines 540-588. -/
def exchange : Exchange :=
  { adhoc := TC.Xkrx.adhoc
    openTimes := TC.Xkrx.openTimes
    closeTimes := TC.Xkrx.closeTimes }

end TC.Xkrx
