import Verif.Spec.Books

/-!
# The holiday lists of the exchanges

One list per exchange, from the documentation and comments of its module in `/repo/trading_calendars`
(the class docstring where it is explicit, the comments and names of the rules where it is not).  The
lists apply from 1970 on; years are those of the docstrings (`until 2004, inclusive` etc.).
-/

namespace TC.Spec.Books

/-- Christmas and Boxing day; if on a weekend, also December 27 and 28 (`common_holidays.py` lines
245-294). -/
def christmasMadeUp : Book :=
  [every christmas, every boxingDay,
   every (.moved 12 25 [[], [], [], [], [], [2], [2]]),
   every (.moved 12 26 [[], [], [], [], [], [2], [2]])]

/-- A line for a single year. -/
def only (y : Int) (x : Yearly) : Line := between y y x

/-- Athens, other than the Orthodox feasts (`exchange_calendar_asex.py` lines 41-181). -/
def athens : Book :=
  [every newYear, every epiphany, every (.date 3 25), every goodFriday, every easterMonday,
   every labourDay, every assumption, every (.date 10 28), since 2009 christmasEve, every christmas,
   every boxingDay]

/-- São Paulo (`exchange_calendar_bvmf.py` lines 35-225); the constitutionalist revolution is kept
after 1997 other than in 2020, the day of black awareness from 2004 on. -/
def saoPaulo : Book :=
  [every newYear, every (.date 1 25), every (.easter (-48)), every (.easter (-47)), every goodFriday,
   every corpusChristi, every (.date 4 21), every labourDay,
   { day := .date 7 9, first := some 1998, but := [2020] },
   every (.date 9 7), every (.date 10 12), every (.date 11 2), every (.date 11 15),
   since 2004 (.date 11 20), every christmasEve, every christmas,
   every (.moved 12 31 weekendToFriday)]

/-- The single closure of São Paulo: the opening of the world cup. -/
def saoPauloClosures : List (Int × Int × Int) := [(2014, 6, 12)]

/-- US futures (`us_futures_calendar.py` lines 20-75). -/
def usFutures : Book :=
  [every (.moved 1 1 sundayToMonday), every goodFriday, every (.moved 12 25 nearestWeekday)]

/-- Sydney (`exchange_calendar_xasx.py` lines 41-191): Australia day is January 26 (made up on Monday)
from 1994 on, January 26 itself in 1988, else the Monday on or after it; none in 1993; Anzac day is
made up on Monday in 2010 only. -/
def sydney : Book :=
  christmasMadeUp ++
  [every (.moved 1 1 weekendToMonday),
   since 1994 (.moved 1 26 weekendToMonday),
   { day := .onOrAfter 0 1 26, first := some 1960, final := some 1992, but := [1988] },
   only 1988 (.date 1 26),
   every goodFriday, every easterMonday,
   { day := .date 4 25, but := [2010] }, only 2010 (.moved 4 25 sundayToMonday),
   every (.nth 2 0 6)]

/-- The single closures of Sydney. -/
def sydneyClosures : List (Int × Int × Int) :=
  [(1984, 12, 31), (1988, 1, 25), (1990, 12, 31), (1999, 12, 31), (2011, 4, 26)]

/-- Bangkok, other than the lunar holidays (`xbkk_holidays.py` lines 16-141): holidays on a weekend are
made up on Monday; New Year's eve, then New Year, on the following weekdays; none of New Year's day in
2006 nor New Year's eve in 2003; the Songkran festival (April 13 to 15) makes up only for Sundays. -/
def bangkok : Book :=
  [{ day := .moved 1 1 mondayOrTuesday, but := [2006] },
   every (.moved 4 6 weekendToMonday),
   every (.date 4 13), every (.moved 4 14 sundayToMonday),
   every (.moved 4 15 [[1], [0], [0], [0], [0], [0], [1]]),
   every (.moved 5 1 weekendToMonday),
   until' 2016 (.moved 5 5 weekendToMonday), since 2019 (.moved 5 4 weekendToMonday),
   since 2019 (.moved 6 3 weekendToMonday),
   between 2002 2016 (.date 7 1),
   since 2017 (.moved 7 28 weekendToMonday),
   every (.moved 8 12 weekendToMonday),
   since 2017 (.moved 10 13 weekendToMonday),
   every (.moved 10 23 weekendToMonday),
   every (.moved 12 5 weekendToMonday), every (.moved 12 10 weekendToMonday),
   { day := .moved 12 31 weekendToMonday, but := [2003] }]

/-- Bogotá (`exchange_calendar_xbog.py` lines 43-201): most feasts are kept on the Monday on or after;
the last weekday of the year is closed. -/
def bogota : Book :=
  [every newYear, every (.onOrAfter 0 1 6), every (.onOrAfter 0 3 19), every maundyThursday,
   every goodFriday, every labourDay, every (.easter 43), every (.easter 64), every (.easter 71),
   every (.onOrAfter 0 6 29), every (.date 7 20), every (.date 8 7), every (.onOrAfter 0 8 15),
   every (.onOrAfter 0 10 12), every (.onOrAfter 0 11 1), every (.onOrAfter 0 11 11),
   every immaculateConception, every christmas, every (.moved 12 31 weekendToFriday)]

/-- Brussels (`exchange_calendar_xbru.py` lines 33-123). -/
def brussels : Book :=
  [every newYear, every goodFriday, every easterMonday, until' 2000 ascension, until' 2001 whitMonday,
   every labourDay, until' 2001 (.date 7 21), every christmas, every boxingDay,
   until' 2001 newYearsEve]

/-- Budapest (`exchange_calendar_xbud.py` lines 42-177): a holiday on a Tuesday or Thursday makes a long
weekend. -/
def budapest : Book :=
  [every (.moved 1 1 longWeekend), every (.moved 3 15 longWeekend), since 2012 goodFriday,
   every easterMonday, every (.moved 5 1 longWeekend), every whitMonday,
   every (.moved 8 20 longWeekend), every (.moved 10 23 longWeekend), every (.moved 11 1 longWeekend),
   every christmasEve, every christmas, until' 2012 boxingDay,
   since 2013 (.moved 12 26 longWeekend), since 2011 newYearsEve]

/-- Buenos Aires (`exchange_calendar_xbue.py` lines 46-373): the day of respect for cultural diversity
is kept on the nearest Monday, other than in 2012; the day of national sovereignty on the fourth Monday
of November from 2010 to 2014 and on the Monday on or after November 17 from 2017 on. -/
def buenosAires : Book :=
  [every newYear, since 2011 (.easter (-48)), since 2011 (.easter (-47)), since 2005 (.date 3 24),
   until' 2004 (.onOrAfter 0 3 31), since 2005 (.date 4 2), every maundyThursday, every goodFriday,
   every labourDay, every (.date 5 25), since 2016 (.date 6 17), until' 2010 (.nth 3 0 6),
   since 2011 (.date 6 20), every (.date 7 9), { day := .nth 3 0 8, but := [2011] },
   { day := .moved 10 12 [[0], [-1], [-2], [4], [3], [2], [1]], but := [2012] },
   until' 2017 (.date 11 6), between 2010 2014 (.nth 4 0 11), since 2017 (.onOrAfter 0 11 17),
   every immaculateConception, every christmas]

/-- The single closures of Buenos Aires: closures of January and April 2002, bridge days and days that
broke a rule (lines 290-340). -/
def buenosAiresClosures : List (Int × Int × Int) :=
  [(2002, 1, 7), (2002, 1, 8), (2002, 1, 9), (2002, 1, 10), (2002, 1, 11), (2002, 1, 12),
   (2002, 1, 13), (2002, 1, 14), (2002, 1, 15), (2002, 1, 16), (2002, 4, 22), (2002, 4, 23),
   (2002, 4, 24), (2002, 4, 25), (2002, 4, 26), (2009, 7, 10), (2010, 5, 24), (2010, 10, 27),
   (2011, 3, 25), (2011, 8, 22), (2011, 12, 9), (2012, 1, 2), (2012, 2, 27), (2012, 4, 30),
   (2012, 9, 24), (2012, 10, 8), (2013, 1, 31), (2013, 2, 20), (2013, 4, 1), (2013, 6, 21),
   (2014, 5, 2), (2014, 12, 26), (2015, 3, 23), (2015, 11, 27), (2015, 12, 7), (2016, 7, 8),
   (2016, 11, 28), (2016, 12, 9), (2018, 4, 30), (2018, 11, 30), (2018, 12, 24), (2018, 12, 31),
   (2019, 7, 8), (2019, 8, 19), (2019, 10, 14)]

/-- The CBOE futures exchange, other than Good Friday (`exchange_calendar_xcbf.py` lines 28-108). -/
def cboeFutures : Book :=
  [every (.moved 1 1 sundayToMonday), since 1998 (.nth 3 0 1), every (.nth 3 0 2),
   since 1971 (.last 0 5), every (.moved 7 4 nearestWeekday), every (.nth 1 0 9), every (.nth 4 3 11),
   every (.moved 12 25 nearestWeekday)]

/-- Its holidays: those, and Good Friday unless Christmas or New Year is observed on a Friday
(lines 28-31). -/
def CboeFuturesHoliday (y d : Int) : Prop :=
  cboeFutures.Holiday y d ∨
  (EasterSunday y (d + 2) ∧ (∀ c, NearestWorkday y 12 25 c → ¬ IsWeekday c 4) ∧
    ∀ n, SundayToMonday y 1 1 n → ¬ IsWeekday n 4)

/-- Its single closures: days of mourning and hurricane Sandy. -/
def cboeFuturesClosures : List (Int × Int × Int) := daysOfMourning ++ [(2012, 10, 29), (2012, 10, 30)]

/-- Copenhagen (`exchange_calendar_xcse.py` lines 39-117): general prayer day is the fourth Friday after
Easter, the bank holiday the day after Ascension, from 2009 on. -/
def copenhagen : Book :=
  [every newYear, every maundyThursday, every goodFriday, every easterMonday, every (.easter 26),
   every ascension, since 2009 (.easter 40), every whitMonday, every (.date 6 5), every christmasEve,
   every christmas, every boxingDay, every newYearsEve]

/-- Dublin (`exchange_calendar_xdub.py` lines 41-174). -/
def dublin : Book :=
  christmasMadeUp ++
  [every (.moved 1 1 weekendToMonday), until' 2000 (.moved 3 17 weekendToMonday), every goodFriday,
   every easterMonday, between 2008 2009 (.moved 5 1 weekendToMonday),
   since 2019 (.moved 5 1 weekendToMonday), until' 2018 (.nth 1 0 5), until' 2018 (.nth 1 0 6),
   until' 2004 christmasEve]

/-- The single closure of Dublin: storm Emma. -/
def dublinClosures : List (Int × Int × Int) := [(2018, 3, 2)]

/-- Frankfurt (`exchange_calendar_xfra.py` lines 44-148, `exchange_calendar_xetr.py` lines 44-149). -/
def frankfurt : Book :=
  [every newYear, every goodFriday, every easterMonday, every labourDay, since 2015 whitMonday,
   since 2014 (.date 10 3), every christmasEve, every christmas, every boxingDay, every newYearsEve]

/-- The single closures of Frankfurt: Whit Monday 2007 and Reformation day 2017. -/
def frankfurtClosures : List (Int × Int × Int) := [(2007, 5, 28), (2017, 10, 31)]

/-- Helsinki (`exchange_calendar_xhel.py` lines 34-101); midsummer eve is the Friday between June 19 and
25. -/
def helsinki : Book :=
  [every newYear, every epiphany, every goodFriday, every easterMonday, every labourDay,
   every ascension, every (.onOrAfter 4 6 19), every (.date 12 6), every christmasEve,
   every christmas, every boxingDay, every newYearsEve]

/-- Hong Kong, other than the lunar holidays and weather closures (`exchange_calendar_xhkg.py` lines
70-473): a holiday on a Sunday is made up on Monday; before the handover also the Queen's birthday
(until 1982 on April 21, 1974 and 1981 on a Sunday; from 1983 to 1996 on the third Monday of June, but
the second in four years and the fourth in 1985), liberation day (last Monday of August) and until
1982 the first Monday of August. -/
def hongKong : Book :=
  [every (.moved 1 1 sundayToMonday), every goodFriday, every easterMonday,
   since 1999 (.moved 5 1 sundayToMonday), since 1997 (.moved 7 1 sundayToMonday),
   since 1997 (.moved 10 1 sundayToMonday),
   { day := .moved 4 21 sundayToMonday, first := some 1926, final := some 1982, but := [1974, 1981] },
   only 1974 (.date 4 21), only 1981 (.date 4 26),
   { day := .nth 3 0 6, first := some 1983, final := some 1996, but := [1983, 1985, 1988, 1993, 1994] },
   only 1985 (.nth 4 0 6), only 1983 (.nth 2 0 6), only 1988 (.nth 2 0 6), only 1993 (.nth 2 0 6),
   only 1994 (.nth 2 0 6),
   between 1946 1996 (.last 0 8), between 1960 1982 (.nth 1 0 8),
   every christmas, every boxingDay, every (.moved 12 25 [[], [], [], [], [], [2], [2]])]

/-- Reykjavik (`exchange_calendar_xice.py` lines 41-126): the first day of summer is the Thursday between
April 19 and 25, commerce day the first Monday of August. -/
def reykjavik : Book :=
  [every newYear, every maundyThursday, every goodFriday, every easterMonday,
   every (.onOrAfter 3 4 19), every labourDay, every ascension, every whitMonday, every (.date 6 17),
   every (.nth 1 0 8), every christmasEve, every christmas, every boxingDay, every newYearsEve]

/-- Jakarta, other than the lunar holidays and common leave (`exchange_calendar_xidx.py` lines 38-446). -/
def jakarta : Book :=
  [every newYear, every goodFriday, since 2014 labourDay, { day := ascension, but := [2003] },
   since 2017 (.date 6 1), every (.date 8 17), every christmas, every newYearsEve]

/-- Istanbul, other than the Islamic holidays (`exchange_calendar_xist.py` lines 36-208). -/
def istanbul : Book :=
  [every newYear, every (.date 4 23), since 2009 labourDay, every (.date 5 19),
   since 2017 (.date 7 15), every (.date 8 30), every (.date 10 29)]

/-- Johannesburg (`exchange_calendar_xjse.py` lines 31-163): a holiday on a Sunday is observed on Monday.
(Human rights day, women's day and the day of reconciliation are March 21, August 9 and December 16; the
docstring says 31, 19 and 19.) -/
def johannesburg : Book :=
  [every (.moved 1 1 sundayToMonday), every (.moved 3 21 sundayToMonday), every goodFriday,
   every easterMonday, every (.moved 4 27 sundayToMonday), every (.moved 5 1 sundayToMonday),
   every (.moved 6 16 sundayToMonday), every (.moved 8 9 sundayToMonday),
   every (.moved 9 24 sundayToMonday), every (.moved 12 16 sundayToMonday),
   every (.moved 12 25 sundayToMonday), every (.moved 12 26 sundayToMonday)]

/-- The single closures of Johannesburg: elections and second observances. -/
def johannesburgClosures : List (Int × Int × Int) :=
  [(2004, 4, 14), (2006, 3, 1), (2008, 5, 2), (2009, 4, 22), (2011, 5, 18), (2011, 12, 27),
   (2014, 5, 7), (2016, 8, 3), (2016, 12, 27), (2019, 5, 8)]

/-- Karachi, other than the Islamic holidays (`exchange_calendar_xkar.py` lines 27-407); Iqbal day until
2012. -/
def karachi : Book :=
  [every (.date 2 5), every (.date 3 23), every labourDay, every (.date 8 14), until' 2012 (.date 11 9),
   every christmas]

/-- Kuala Lumpur, other than the lunar holidays (`exchange_calendar_xkls.py` lines 49-143). -/
def kualaLumpur : Book :=
  [every (.moved 1 1 sundayToMonday), every (.moved 2 1 sundayToMonday),
   every (.moved 5 1 sundayToMonday), every (.moved 8 31 sundayToMonday),
   since 2010 (.moved 9 16 sundayToMonday), every (.moved 12 25 sundayToMonday)]

/-- Lima (`exchange_calendar_xlim.py` lines 39-154). -/
def lima : Book :=
  [every newYear, every maundyThursday, every goodFriday, every labourDay, every (.date 6 29),
   every (.date 7 28), every (.date 7 29), every (.date 8 30), every (.date 10 8), every allSaints,
   every immaculateConception, every christmas, until' 2007 newYearsEve]

/-- The single closures of Lima. -/
def limaClosures : List (Int × Int × Int) :=
  [(2009, 1, 2), (2009, 7, 27), (2012, 10, 1), (2012, 10, 2), (2015, 1, 2), (2015, 7, 27),
   (2015, 10, 9), (2016, 11, 17), (2016, 11, 18), (2018, 4, 13)]

/-- Lisbon (`exchange_calendar_xlis.py` lines 36-171): the Portuguese holidays until 2002, St Anthony's
day until 2001. -/
def lisbon : Book :=
  [every newYear, until' 2002 (.easter (-47)), every goodFriday, every easterMonday,
   until' 2002 corpusChristi, until' 2002 (.date 4 25), every labourDay, until' 2002 (.date 6 10),
   until' 2001 (.date 6 13), until' 2002 assumption, until' 2002 (.date 10 5), until' 2002 allSaints,
   until' 2002 (.date 12 1), until' 2002 immaculateConception, until' 2002 christmasEve,
   every christmas, every boxingDay]

/-- Madrid (`exchange_calendar_xmad.py` lines 44-157); until 2004 the Assumption was made up on Monday. -/
def madrid : Book :=
  [every newYear, until' 2006 epiphany, every goodFriday, every easterMonday, every labourDay,
   until' 2004 (.moved 8 15 weekendToMonday), until' 2004 (.date 10 12), until' 2004 allSaints,
   until' 2004 (.date 12 6), until' 2004 immaculateConception, until' 2010 christmasEve,
   every christmas, every boxingDay, until' 2010 newYearsEve]

/-- Mexico (`exchange_calendar_xmex.py` lines 32-138): constitution day, Juárez's birthday and the
revolution are kept on Mondays from 2007 on. -/
def mexico : Book :=
  [every newYear, until' 2006 (.date 2 5), since 2007 (.nth 1 0 2), until' 2006 (.date 3 21),
   since 2007 (.nth 3 0 3), every maundyThursday, every goodFriday, every labourDay, every (.date 9 16),
   since 2006 (.date 11 2), until' 2006 (.date 11 20), since 2007 (.nth 3 0 11), every (.date 12 12),
   every christmas]

/-- The single closure of Mexico: the bicentennial. -/
def mexicoClosures : List (Int × Int × Int) := [(2010, 9, 17)]

/-- Milan (`exchange_calendar_xmil.py` lines 31-90). -/
def milan : Book :=
  [every newYear, every goodFriday, every easterMonday, every labourDay, every assumption,
   every christmasEve, every christmas, every boxingDay, every newYearsEve]

/-- Moscow (`exchange_calendar_xmos.py` lines 27-309): holidays on a weekend are made up on Monday, with
exceptions in single years; from 2005 to 2011 January 3 to 6 are holidays. -/
def moscow : Book :=
  [every (.moved 1 1 weekendToMonday), { day := .moved 1 2 weekendToMonday, but := [2016] },
   between 2005 2011 (.date 1 3), between 2005 2011 (.date 1 4), between 2005 2011 (.date 1 5),
   between 2005 2011 (.date 1 6),
   { day := .moved 1 7 weekendToMonday, but := [2012, 2017] },
   { day := .moved 2 23 weekendToMonday, but := [2013, 2014, 2019] },
   every (.moved 3 8 weekendToMonday), every (.moved 5 1 weekendToMonday),
   every (.moved 5 9 weekendToMonday), every (.moved 6 12 weekendToMonday),
   since 2005 (.moved 11 4 weekendToMonday),
   { day := .moved 12 31 weekendToMonday, but := [2008, 2009] }]

/-- The single closures of Moscow: bridge days (lines 136-219) and suspensions of trading in 2008. -/
def moscowClosures : List (Int × Int × Int) :=
  [(2003, 1, 3), (2013, 1, 3), (2013, 1, 4), (2014, 1, 3),
   (2003, 1, 6), (2005, 1, 10), (2008, 1, 8), (2009, 1, 8), (2009, 1, 9), (2010, 1, 8), (2011, 1, 10),
   (2016, 1, 8), (2006, 2, 24), (2010, 2, 22), (2005, 3, 7), (2011, 3, 7), (2012, 3, 9),
   (2002, 5, 2), (2002, 5, 3), (2003, 5, 2), (2004, 5, 4), (2007, 4, 30), (2008, 5, 2), (2012, 4, 30),
   (2015, 5, 4), (2016, 5, 3), (2002, 5, 10), (2005, 5, 10), (2006, 5, 8), (2017, 5, 8),
   (2003, 6, 13), (2007, 6, 11), (2008, 6, 13), (2012, 6, 11), (2014, 6, 13),
   (2008, 11, 3), (2010, 11, 5), (2002, 11, 7), (2002, 11, 8), (2002, 12, 12), (2002, 12, 13),
   (2003, 11, 7), (2003, 12, 12), (2004, 11, 8), (2004, 12, 13), (2008, 9, 18), (2008, 10, 10),
   (2008, 10, 27)]

/-- Wellington (`exchange_calendar_xnze.py` lines 52-209): New Year and the day after, Christmas and
Boxing day are made up on the next Monday and Tuesday; Waitangi and Anzac day from 2015 on. -/
def wellington : Book :=
  [every (.moved 1 1 weekendToMonday), every (.moved 1 2 mondayOrTuesday),
   until' 2014 (.date 2 6), since 2015 (.moved 2 6 weekendToMonday), every goodFriday,
   every easterMonday, until' 2014 (.date 4 25), since 2015 (.moved 4 25 weekendToMonday),
   every (.nth 1 0 6), every (.nth 4 0 10), every (.moved 12 25 weekendToMonday),
   every (.moved 12 26 mondayOrTuesday)]

/-- The single closures of Wellington. -/
def wellingtonClosures : List (Int × Int × Int) :=
  [(1986, 12, 22), (1986, 12, 23), (1986, 12, 24), (1986, 12, 29), (1986, 12, 30), (1986, 12, 31),
   (1990, 12, 24), (1990, 12, 31), (1991, 12, 27), (1992, 1, 3), (1999, 12, 31)]

/-- Oslo (`exchange_calendar_xosl.py` lines 35-106). -/
def oslo : Book :=
  [every newYear, every maundyThursday, every goodFriday, every easterMonday, every labourDay,
   every ascension, every (.date 5 17), every whitMonday, every christmasEve, every christmas,
   every boxingDay, every newYearsEve]

/-- Paris (`exchange_calendar_xpar.py` lines 32-120). -/
def paris : Book :=
  [every newYear, every goodFriday, every easterMonday, until' 2001 whitMonday, every labourDay,
   until' 2001 (.date 7 14), every christmas, every boxingDay, until' 2001 newYearsEve]

/-- Manila from 2011 on, and Good Friday at all times (earlier holidays are a table), other than the lunar
holidays (`exchange_calendar_xphs.py` lines 46-424); November 2 if a Friday. -/
def manila : Book :=
  [since 2011 newYear, since 2016 (.date 2 25), since 2011 (.date 4 9), since 2011 maundyThursday,
   every goodFriday, since 2011 labourDay, since 2011 (.date 6 12), since 2011 (.date 8 21),
   since 2011 (.last 0 8), since 2011 allSaints, since 2011 (.dateIf 11 2 [4]),
   since 2011 (.date 11 30), since 2011 christmasEve, since 2011 christmas, since 2011 (.date 12 30),
   since 2011 newYearsEve]

/-- Prague (`exchange_calendar_xpra.py` lines 39-166); Good Friday from 2013 on. -/
def prague : Book :=
  [every newYear, since 2013 goodFriday, every easterMonday, every labourDay, every (.date 5 8),
   every (.date 7 5), every (.date 7 6), every (.date 9 28), every (.date 10 28), every (.date 11 17),
   every christmasEve, every christmas, every boxingDay, every newYearsEve]

/-- The single closures of Prague: the flood of 2002 and two exchange holidays. -/
def pragueClosures : List (Int × Int × Int) := [(2002, 8, 14), (2004, 1, 2), (2005, 1, 3)]

/-- Santiago (`exchange_calendar_xsgo.py` lines 47-275): Saint Peter's day and October 12 are kept on
the nearest Monday unless on a weekend; September 17 if a Monday and September 20 if a Friday, from 2003
on; Evangelical church day, from 2008 on, moves from Tuesday and Wednesday to a Friday; until 2007 the
Monday before Corpus Christi. -/
def santiago : Book :=
  [every newYear, every goodFriday, until' 2007 (.easter 57), every labourDay, every (.date 5 21),
   every (.moved 6 29 [[0], [-1], [-2], [-3], [3], [0], [0]]), since 2008 (.date 7 16),
   every assumption, since 2003 (.dateIf 9 17 [0]), every (.date 9 18), every (.date 9 19),
   since 2003 (.dateIf 9 20 [4]),
   every (.moved 10 12 [[0], [-1], [-2], [-3], [3], [0], [0]]),
   since 2008 (.moved 10 31 [[0], [-4], [2], [0], [0], [0], [0]]), every allSaints,
   every immaculateConception, every christmas, every newYearsEve]

/-- The single closures of Santiago. -/
def santiagoClosures : List (Int × Int × Int) :=
  [(2010, 9, 17), (2010, 9, 20), (2017, 1, 2), (2017, 4, 19), (2018, 1, 16)]

/-- Stockholm (`exchange_calendar_xsto.py` lines 44-163). -/
def stockholm : Book :=
  [every newYear, every epiphany, every goodFriday, every easterMonday, every labourDay,
   every ascension, until' 2004 whitMonday, since 2004 (.date 6 6), every (.onOrAfter 4 6 19),
   every christmasEve, every christmas, every boxingDay, every newYearsEve]

/-- Zürich (`exchange_calendar_xswx.py` lines 41-119). -/
def zurich : Book :=
  [every newYear, every (.date 1 2), every goodFriday, every easterMonday, every labourDay,
   every ascension, every whitMonday, every (.date 8 1), every christmasEve, every christmas,
   every boxingDay, every newYearsEve]

/-- Taipei, other than the lunar holidays (`exchange_calendar_xtai.py` lines 48-323): from 2014 on a
holiday on a Tuesday or Thursday makes a long weekend and one on a weekend is also kept on the nearest
weekday. -/
def taipei : Book :=
  [every (.date 1 1), since 2014 (.moved 1 1 [[], [-1], [], [1], [], [-1], [1]]),
   every (.date 2 28), since 2014 (.moved 2 28 [[], [-1], [], [1], [], [-1], [1]]),
   since 2011 (.date 4 4), since 2014 (.moved 4 4 [[], [-1], [], [1], [], [-1], [1]]),
   every (.moved 5 1 sundayToMonday),
   every (.date 10 10), since 2014 (.moved 10 10 [[], [-1], [], [1], [], [-1], [1]])]

/-- Tokyo, other than the equinoxes (`exchange_calendar_xtks.py` lines 52-146, `xtks_holidays.py`): a
holiday on a Sunday is made up on the next weekday that is none; marine, mountain and sports day moved
for the Olympic games of 2020, put off to 2021. -/
def tokyo : Book :=
  [every (.date 1 1), every (.date 1 2), every (.date 1 3), every (.nth 2 0 1),
   every (.moved 2 11 sundayToMonday), since 2020 (.moved 2 23 sundayToMonday),
   every (.moved 4 29 sundayToMonday),
   until' 2006 (.moved 5 3 [[0], [0], [0], [0], [0], [0], [2]]),
   since 2007 (.moved 5 3 [[0], [0], [0], [0], [0], [0], [3]]),
   until' 2006 (.date 5 4), since 2007 (.moved 5 4 [[0], [0], [0], [0], [0], [0], [2]]),
   every (.moved 5 5 sundayToMonday),
   until' 2002 (.moved 7 20 sundayToMonday),
   { day := .nth 3 0 7, first := some 2003, but := [2020, 2021] },
   only 2020 (.date 7 23), only 2021 (.date 7 22),
   { day := .moved 8 11 sundayToMonday, first := some 2016, but := [2020, 2021] },
   only 2020 (.date 8 10), only 2021 (.date 8 9),
   until' 2002 (.moved 9 15 sundayToMonday), since 2003 (.nth 3 0 9),
   { day := .nth 2 0 10, but := [2020, 2021] }, only 2020 (.date 7 24), only 2021 (.date 7 23),
   every (.moved 11 3 sundayToMonday), every (.moved 11 23 sundayToMonday),
   until' 2018 (.moved 12 23 sundayToMonday), every (.date 12 31)]

/-- The single closures of Tokyo: the equinoxes of 2000 to 2021 (made up on Monday), citizens' holidays
between two others, and the accession of 2019. -/
def tokyoClosures : List (Int × Int × Int) :=
  [(2000, 3, 20), (2001, 3, 20), (2002, 3, 21), (2003, 3, 21), (2004, 3, 20), (2005, 3, 21),
   (2006, 3, 21), (2007, 3, 21), (2008, 3, 20), (2009, 3, 20), (2010, 3, 22), (2011, 3, 21),
   (2012, 3, 20), (2013, 3, 20), (2014, 3, 21), (2015, 3, 21), (2016, 3, 21), (2017, 3, 20),
   (2018, 3, 21), (2019, 3, 21), (2020, 3, 20), (2021, 3, 20),
   (2000, 9, 23), (2001, 9, 24), (2002, 9, 23), (2003, 9, 23), (2004, 9, 23), (2005, 9, 23),
   (2006, 9, 23), (2007, 9, 24), (2008, 9, 23), (2009, 9, 23), (2010, 9, 23), (2011, 9, 23),
   (2012, 9, 22), (2013, 9, 23), (2014, 9, 23), (2015, 9, 23), (2016, 9, 22), (2017, 9, 23),
   (2018, 9, 24), (2019, 9, 23), (2020, 9, 22), (2021, 9, 23),
   (2009, 9, 22), (2015, 9, 22), (2019, 4, 30), (2019, 5, 1), (2019, 5, 2), (2019, 10, 22)]

/-- Toronto (`exchange_calendar_xtse.py` lines 34-172). -/
def toronto : Book :=
  christmasMadeUp ++
  [every (.moved 1 1 weekendToMonday), since 2008 (.nth 3 0 2), every goodFriday,
   every (.onOrBefore 0 5 24), every (.moved 7 1 weekendToMonday), every (.nth 1 0 8),
   every (.nth 1 0 9), every (.nth 2 0 10)]

/-- The single closures of Toronto. -/
def torontoClosures : List (Int × Int × Int) := [(2001, 9, 11), (2001, 9, 12)]

/-- Warsaw (`exchange_calendar_xwar.py` lines 40-152); no Christmas eve in 2004. -/
def warsaw : Book :=
  [every newYear, since 2011 epiphany, every goodFriday, every easterMonday, every labourDay,
   every (.date 5 3), every corpusChristi, every assumption, every allSaints, every (.date 11 11),
   { day := christmasEve, but := [2004] }, every christmas, every boxingDay, since 2011 newYearsEve]

/-- The single closures of Warsaw. -/
def warsawClosures : List (Int × Int × Int) :=
  [(2005, 4, 8), (2007, 12, 31), (2008, 5, 2), (2009, 1, 2), (2013, 4, 16), (2018, 1, 2), (2018, 11, 12)]

/-- Vienna (`exchange_calendar_xwbo.py` lines 42-134): six feasts until 2018; New Year's eve, until 2015
on the Friday before if on a weekend. -/
def vienna : Book :=
  [every newYear, until' 2018 epiphany, every goodFriday, every easterMonday, until' 2018 ascension,
   every whitMonday, until' 2018 corpusChristi, every labourDay, until' 2018 assumption,
   every (.date 10 26), until' 2018 allSaints, until' 2018 immaculateConception, every christmasEve,
   every christmas, every boxingDay, until' 2015 (.moved 12 31 weekendToFriday), since 2016 newYearsEve]

end TC.Spec.Books
