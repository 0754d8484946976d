import Verif.Model.Exchange

/-! `/repo/trading_calendars/xtks_holidays.py`, translated by `tools/gen_exchanges.py`. -/

namespace TC.XtksHolidays

/-- `NewYearsHolidayJan1`, `xtks_holidays.py` line 35. -/
def newYearsHolidayJan1 : Rule := TC.newYearsDay

/-- `NewYearsHolidayJan2`, `xtks_holidays.py` lines 37-41. -/
def newYearsHolidayJan2 : Rule := { month := 1, day := 2 }

/-- `NewYearsHolidayJan3`, `xtks_holidays.py` lines 42-46. -/
def newYearsHolidayJan3 : Rule := { month := 1, day := 3 }

/-- `ComingOfAgeDay`, `xtks_holidays.py` lines 48-53. -/
def comingOfAgeDay : Rule := { month := 1, day := 1, offsets := [.weekday 0 2] }

/-- `NationalFoundationDay`, `xtks_holidays.py` lines 55-60. -/
def nationalFoundationDay : Rule := { month := 2, day := 11, observance := some .sundayToMonday }

/-- `VernalEquinoxes`, `xtks_holidays.py` lines 69-92. -/
def vernalEquinoxes : List Int :=
  [dayOf 2000 3 20, dayOf 2001 3 20, dayOf 2002 3 21, dayOf 2003 3 21, dayOf 2004 3 20,
   dayOf 2005 3 21, dayOf 2006 3 21, dayOf 2007 3 21, dayOf 2008 3 20, dayOf 2009 3 20,
   dayOf 2010 3 22, dayOf 2011 3 21, dayOf 2012 3 20, dayOf 2013 3 20, dayOf 2014 3 21,
   dayOf 2015 3 21, dayOf 2016 3 21, dayOf 2017 3 20, dayOf 2018 3 21, dayOf 2019 3 21,
   dayOf 2020 3 20, dayOf 2021 3 20]

/-- `ChildrensDay`, `xtks_holidays.py` lines 100-105. -/
def childrensDay : Rule := { month := 5, day := 5, observance := some .sundayToMonday }

/-- `GreeneryDay2007Onwards`, `xtks_holidays.py` lines 113-119. -/
def greeneryDay2007Onwards : Rule :=
  { month := 5, day := 4, observance := some .sundayToTuesday,
    startDate := some (dayOf 2007 1 1) }

/-- `CitizensHolidayGoldenWeek`, `xtks_holidays.py` lines 121-126. -/
def citizensHolidayGoldenWeek : Rule := { month := 5, day := 4, endDate := some (dayOf 2007 1 1) }

/-- `GreeneryDayThrough2006`, `xtks_holidays.py` lines 130-136. -/
def greeneryDayThrough2006 : Rule :=
  { month := 4, day := 29, observance := some .sundayToMonday, endDate := some (dayOf 2007 1 1) }

/-- `ShowaDay`, `xtks_holidays.py` lines 138-144. -/
def showaDay : Rule :=
  { month := 4, day := 29, observance := some .sundayToMonday,
    startDate := some (dayOf 2007 1 1) }

/-- `ConstitutionMemorialDay2007Onwards`, `xtks_holidays.py` lines 147-153. -/
def constitutionMemorialDay2007Onwards : Rule :=
  { month := 5, day := 3, observance := some .sundayToWednesday,
    startDate := some (dayOf 2007 1 1) }

/-- `ConstitutionMemorialDayThrough2006`, `xtks_holidays.py` lines 156-162. -/
def constitutionMemorialDayThrough2006 : Rule :=
  { month := 5, day := 3, observance := some .sundayToTuesday, endDate := some (dayOf 2007 1 1) }

/-- `MarineDayThrough2002`, `xtks_holidays.py` lines 165-171. -/
def marineDayThrough2002 : Rule :=
  { month := 7, day := 20, observance := some .sundayToMonday, endDate := some (dayOf 2003 1 1) }

/-- `MarineDay2003OnwardsThrough2019`, `xtks_holidays.py` lines 173-180. -/
def marineDay2003OnwardsThrough2019 : Rule :=
  { month := 7, day := 1, offsets := [.weekday 0 3], startDate := some (dayOf 2003 1 1),
    endDate := some (dayOf 2020 1 1) }

/-- `MarineDay2020`, `xtks_holidays.py` lines 183-188. -/
def marineDay2020 : Rule := { year := some 2020, month := 7, day := 23 }

/-- `MarineDay2021`, `xtks_holidays.py` lines 190-195. -/
def marineDay2021 : Rule := { year := some 2021, month := 7, day := 22 }

/-- `MarineDay2022Onwards`, `xtks_holidays.py` lines 197-203. -/
def marineDay2022Onwards : Rule :=
  { month := 7, day := 1, offsets := [.weekday 0 3], startDate := some (dayOf 2022 1 1) }

/-- `MountainDayThrough2019`, `xtks_holidays.py` lines 205-212. -/
def mountainDayThrough2019 : Rule :=
  { month := 8, day := 11, observance := some .sundayToMonday, startDate := some (dayOf 2016 1 1),
    endDate := some (dayOf 2020 1 1) }

/-- `MountainDay2020`, `xtks_holidays.py` lines 215-220. -/
def mountainDay2020 : Rule := { year := some 2020, month := 8, day := 10 }

/-- `MountainDay2021`, `xtks_holidays.py` lines 222-227. -/
def mountainDay2021 : Rule := { year := some 2021, month := 8, day := 9 }

/-- `MountainDay2022Onwards`, `xtks_holidays.py` lines 229-235. -/
def mountainDay2022Onwards : Rule :=
  { month := 8, day := 11, observance := some .sundayToMonday,
    startDate := some (dayOf 2022 1 1) }

/-- `AutumnalEquinoxes`, `xtks_holidays.py` lines 238-261. -/
def autumnalEquinoxes : List Int :=
  [dayOf 2000 9 23, dayOf 2001 9 24, dayOf 2002 9 23, dayOf 2003 9 23, dayOf 2004 9 23,
   dayOf 2005 9 23, dayOf 2006 9 23, dayOf 2007 9 24, dayOf 2008 9 23, dayOf 2009 9 23,
   dayOf 2010 9 23, dayOf 2011 9 23, dayOf 2012 9 22, dayOf 2013 9 23, dayOf 2014 9 23,
   dayOf 2015 9 23, dayOf 2016 9 22, dayOf 2017 9 23, dayOf 2018 9 24, dayOf 2019 9 23,
   dayOf 2020 9 22, dayOf 2021 9 23]

/-- `CitizensHolidaySilverWeek`, `xtks_holidays.py` lines 267-270. -/
def citizensHolidaySilverWeek : List Int := [dayOf 2009 9 22, dayOf 2015 9 22]

/-- `RespectForTheAgedDayThrough2002`, `xtks_holidays.py` lines 272-278. -/
def respectForTheAgedDayThrough2002 : Rule :=
  { month := 9, day := 15, observance := some .sundayToMonday, endDate := some (dayOf 2003 1 1) }

/-- `RespectForTheAgedDay2003Onwards`, `xtks_holidays.py` lines 280-286. -/
def respectForTheAgedDay2003Onwards : Rule :=
  { month := 9, day := 1, offsets := [.weekday 0 3], startDate := some (dayOf 2003 1 1) }

/-- `HealthAndSportsDayThrough2019`, `xtks_holidays.py` lines 288-294. -/
def healthAndSportsDayThrough2019 : Rule :=
  { month := 10, day := 1, offsets := [.weekday 0 2], endDate := some (dayOf 2020 1 1) }

/-- `HealthAndSportsDay2020`, `xtks_holidays.py` lines 297-302. -/
def healthAndSportsDay2020 : Rule := { year := some 2020, month := 7, day := 24 }

/-- `HealthAndSportsDay2021`, `xtks_holidays.py` lines 304-309. -/
def healthAndSportsDay2021 : Rule := { year := some 2021, month := 7, day := 23 }

/-- `HealthAndSportsDay2022Onwards`, `xtks_holidays.py` lines 311-317. -/
def healthAndSportsDay2022Onwards : Rule :=
  { month := 10, day := 1, offsets := [.weekday 0 2], startDate := some (dayOf 2022 1 1) }

/-- `CultureDay`, `xtks_holidays.py` lines 319-324. -/
def cultureDay : Rule := { month := 11, day := 3, observance := some .sundayToMonday }

/-- `LaborThanksgivingDay`, `xtks_holidays.py` lines 326-331. -/
def laborThanksgivingDay : Rule := { month := 11, day := 23, observance := some .sundayToMonday }

/-- `EmperorAkihitoBirthday`, `xtks_holidays.py` lines 336-342. -/
def emperorAkihitoBirthday : Rule :=
  { month := 12, day := 23, observance := some .sundayToMonday,
    endDate := some (dayOf 2019 4 30) }

/-- `EmperorNaruhitoBirthday`, `xtks_holidays.py` lines 344-350. -/
def emperorNaruhitoBirthday : Rule :=
  { month := 2, day := 23, observance := some .sundayToMonday,
    startDate := some (dayOf 2019 4 30) }

/-- `NewYearsHolidayDec31`, `xtks_holidays.py` lines 352-356. -/
def newYearsHolidayDec31 : Rule := { month := 12, day := 31 }

/-- `Misc2019Holidays`, `xtks_holidays.py` lines 358-363. -/
def misc2019Holidays : List Int :=
  [dayOf 2019 4 30, dayOf 2019 5 1, dayOf 2019 5 2, dayOf 2019 10 22]

end TC.XtksHolidays
