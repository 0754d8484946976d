import Verif.Py
import Verif.Lemmas.Py
import Verif.Model.Dispatcher
import Verif.Lemmas.Dispatcher
import Verif.Props.Dispatcher
import Verif.Model.Helpers
import Verif.Model.Calendar
import Verif.Spec.Calendar
import Verif.Spec.Abstraction
import Verif.Lemmas.Calendar
import Verif.Lemmas.Minutes
import Verif.Lemmas.Index
import Verif.Props.Queries
import Verif.Model.UsFutures
import Verif.Lemmas.Ranges
import Verif.Props.Ranges
import Verif.Model.TimeZone
import Verif.Spec.TimeZone
import Verif.Lemmas.TimeZone
import Verif.Model.Build
import Verif.Spec.Build
import Verif.Lemmas.Build
import Verif.Lemmas.BuildTimes
import Verif.Lemmas.BuildRows
import Verif.Lemmas.BuildRegular
import Verif.Lemmas.BuildSucceeds
import Verif.Lemmas.Ordered
import Verif.Model.SimpleCalendars
import Verif.Props.Build
import Verif.Model.Civil
import Verif.Spec.Civil
import Verif.Lemmas.Civil
import Verif.Model.Holiday
import Verif.Spec.Holiday
import Verif.Lemmas.Holiday
import Verif.Lemmas.HolidayCheck
import Verif.Lemmas.HolidayCache
import Verif.Props.Holiday
import Verif.Model.Exchange
import Verif.Spec.Exchange
import Verif.Lemmas.RuleCheck
import Verif.Lemmas.ExchangeCheck
import Verif.Model.Exchanges.Asex
import Verif.Model.Exchanges.Bvmf
import Verif.Model.Exchanges.Cmes
import Verif.Model.Exchanges.CommonHolidays
import Verif.Model.Exchanges.Iepa
import Verif.Model.Exchanges.LunisolarHolidays
import Verif.Model.Exchanges.UsFuturesCalendar
import Verif.Model.Exchanges.UsHolidays
import Verif.Model.Exchanges.Xams
import Verif.Model.Exchanges.Xasx
import Verif.Model.Exchanges.Xbkk
import Verif.Model.Exchanges.XbkkHolidays
import Verif.Model.Exchanges.Xbog
import Verif.Model.Exchanges.Xbom
import Verif.Model.Exchanges.Xbru
import Verif.Model.Exchanges.Xbud
import Verif.Model.Exchanges.Xbue
import Verif.Model.Exchanges.Xcbf
import Verif.Model.Exchanges.Xcse
import Verif.Model.Exchanges.Xdub
import Verif.Model.Exchanges.Xetr
import Verif.Model.Exchanges.Xfra
import Verif.Model.Exchanges.Xhel
import Verif.Model.Exchanges.Xhkg
import Verif.Model.Exchanges.Xice
import Verif.Model.Exchanges.Xidx
import Verif.Model.Exchanges.Xist
import Verif.Model.Exchanges.Xjse
import Verif.Model.Exchanges.Xkar
import Verif.Model.Exchanges.Xkls
import Verif.Model.Exchanges.XklsHolidays
import Verif.Model.Exchanges.Xkrx
import Verif.Model.Exchanges.Xlim
import Verif.Model.Exchanges.Xlis
import Verif.Model.Exchanges.Xlon
import Verif.Model.Exchanges.Xmad
import Verif.Model.Exchanges.Xmex
import Verif.Model.Exchanges.Xmil
import Verif.Model.Exchanges.Xmos
import Verif.Model.Exchanges.Xnys
import Verif.Model.Exchanges.Xnze
import Verif.Model.Exchanges.Xosl
import Verif.Model.Exchanges.Xpar
import Verif.Model.Exchanges.Xphs
import Verif.Model.Exchanges.Xpra
import Verif.Model.Exchanges.Xses
import Verif.Model.Exchanges.Xsgo
import Verif.Model.Exchanges.Xshg
import Verif.Model.Exchanges.Xsto
import Verif.Model.Exchanges.Xswx
import Verif.Model.Exchanges.Xtai
import Verif.Model.Exchanges.Xtks
import Verif.Model.Exchanges.XtksHolidays
import Verif.Model.Exchanges.Xtse
import Verif.Model.Exchanges.Xwar
import Verif.Model.Exchanges.Xwbo
import Verif.Model.Zones
import Verif.Lemmas.ZoneCheck
import Verif.Lemmas.ZonesClear
import Verif.Props.Exchanges1
import Verif.Props.Exchanges2
import Verif.Props.Exchanges3
import Verif.Props.Exchanges4
import Verif.Spec.RuleBooks
import Verif.Lemmas.Named
import Verif.Lemmas.RuleBooks
import Verif.Props.UsHolidays
import Verif.Props.UsExchanges
import Verif.Props.RuleBooks
import Verif.Model.Lazyval
import Verif.Spec.Lazyval
import Verif.Lemmas.Lazyval
import Verif.Props.Lazyval
import Verif.Model.Tcal
import Verif.Spec.Tcal
import Verif.Lemmas.Tcal
import Verif.Props.Tcal
import Verif.Model.TcalMain
import Verif.Spec.TcalMain
import Verif.Props.TcalMain
import Verif.Model.Construct
import Verif.Spec.Construct
import Verif.Lemmas.Construct
import Verif.Props.Construct
import Verif.Model.Hebrew
import Verif.Model.Exchanges.Xtae
import Verif.Spec.Hebrew
import Verif.Lemmas.Hebrew
import Verif.Props.Hebrew
import Verif.Model.Defaults
import Verif.Spec.Defaults
import Verif.Props.Defaults
import Verif.Spec.Books
import Verif.Spec.BookList
import Verif.Spec.FeastDates
import Verif.Spec.Feasts
import Verif.Lemmas.Books
import Verif.Lemmas.Feasts
import Verif.Props.Books1
import Verif.Props.Books2
import Verif.Spec.Hours
import Verif.Lemmas.Hours
import Verif.Props.Hours
import Verif.Spec.Clocks
import Verif.Lemmas.Clocks
import Verif.Props.ClockZones
import Verif.Props.Clocks
import Verif.Spec.ByClock
import Verif.Lemmas.ByClock
import Verif.Props.ByClock
import Verif.Model.Lunisolar
import Verif.Spec.Lunisolar
import Verif.Lemmas.Lunisolar
import Verif.Props.Lunisolar
import Verif.Model.LunisolarCal
import Verif.Spec.LunisolarCal
import Verif.Lemmas.LunisolarCal
import Verif.Props.LunisolarCal
import Verif.Spec.Overlap
import Verif.Lemmas.Overlap
import Verif.Props.Overlap
import Verif.Model.CheckHolidays
import Verif.Spec.CheckHolidays
import Verif.Props.CheckHolidays
import Verif.Model.Version
import Verif.Spec.Version
import Verif.Props.Version
import Verif.Model.Threads
import Verif.Spec.Threads
import Verif.Props.Threads
import Verif.Model.CacheThreads
import Verif.Props.CacheThreads
import Verif.Spec.Interrupted
import Verif.Props.Interrupted
import Verif.Props.InterruptedCaches
import Verif.Model.Errors
import Verif.Spec.Errors
import Verif.Props.Errors
import Verif.Model.Dispatchers
import Verif.Spec.Dispatchers
import Verif.Props.Dispatchers
import Verif.Model.TestCsv
import Verif.Spec.TestCsv
import Verif.Lemmas.TestCsv
import Verif.Props.TestCsv
import Verif.Model.Precomputed
import Verif.Spec.Precomputed
import Verif.Lemmas.Precomputed
import Verif.Props.Precomputed
import Verif.Model.LunisolarDates
import Verif.Spec.LunisolarDates
import Verif.Props.LunisolarDates
import Verif.Model.TerrestrialTime
import Verif.Spec.TerrestrialTime
import Verif.Props.TerrestrialTime
import Verif.Model.Smoothing
import Verif.Props.Smoothing
import Verif.Spec.StartTime
import Verif.Props.StartTime
import Verif.Props.StartTimeDefault
import Verif.Model.Machine
import Verif.Spec.Machine
import Verif.Lemmas.Machine
import Verif.Props.Machine
import Verif.Props.MachineDefault
import Verif.Spec.Edits
import Verif.Lemmas.Edits
import Verif.Props.Edits
import Verif.Props.Combine
import Verif.Props.ReadTime
import Verif.Model.Window
import Verif.Spec.Window
import Verif.Props.Window
import Verif.Spec.Gaps
import Verif.Lemmas.DayBits
import Verif.Props.Gaps1
import Verif.Props.Gaps2
import Verif.Props.Gaps3
import Verif.Props.Gaps4
import Verif.Props.GapsTelAviv
import Verif.Props.Gaps
import Verif.Spec.Agree
import Verif.Lemmas.Agree
import Verif.Props.Agree
import Verif.Spec.Together
import Verif.Lemmas.Together
import Verif.Props.Together
import Verif.Props.RegistryOrder
import Verif.Spec.SessionLength
import Verif.Lemmas.SessionLength
import Verif.Props.SessionLength
import Verif.Model.Reentrant
import Verif.Spec.Reentrant
import Verif.Props.Reentrant
import Verif.Spec.Moons
import Verif.Props.Moons
import Verif.Props.MoonsScript
import Verif.Spec.Recorded
import Verif.Props.Recorded
import Verif.Spec.Horizon
import Verif.Props.Horizon
import Verif.Spec.Dates
import Verif.Lemmas.Dates
import Verif.Props.Dates
import Verif.Spec.Months
import Verif.Lemmas.Months
import Verif.Props.Months
import Verif.Model.Versioneer
import Verif.Spec.Versioneer
import Verif.Lemmas.Versioneer
import Verif.Props.Versioneer
import Verif.Spec.Weeks
import Verif.Lemmas.Weeks
import Verif.Props.Weeks
import Verif.Model.MachineRules
import Verif.Spec.MachineRules
import Verif.Lemmas.MachineRules
import Verif.Props.MachineRules
import Verif.Model.VersioneerSetup
import Verif.Spec.VersioneerSetup
import Verif.Lemmas.VersioneerSetup
import Verif.Props.VersioneerSetup
import Verif.Spec.EarlyYear
import Verif.Lemmas.EarlyYear
import Verif.Lemmas.EarlyYearCount
import Verif.Props.EarlyYear1
import Verif.Props.EarlyYear2
import Verif.Props.EarlyYear3
import Verif.Props.EarlyYear4
import Verif.Props.EarlyYear
import Verif.Props.EarlyYearNewYork
import Verif.Props.LastDay
import Verif.Model.VersioneerScan
import Verif.Spec.VersioneerScan
import Verif.Props.VersioneerScan
import Verif.Props.DatesUtc
import Verif.Model.VersioneerConfig
import Verif.Spec.VersioneerConfig
import Verif.Props.VersioneerConfig
