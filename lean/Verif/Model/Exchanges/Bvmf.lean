import Verif.Model.Exchange
import Verif.Model.Zones

/-! `/repo/trading_calendars/exchange_calendar_bvmf.py`, translated by `tools/gen_exchanges.py`. -/

namespace TC.Bvmf

/-- `ConfUniversal`, `exchange_calendar_bvmf.py` lines 35-39. -/
def confUniversal : Rule := { month := 1, day := 1 }

/-- `AniversarioSaoPaulo`, `exchange_calendar_bvmf.py` lines 41-45. -/
def aniversarioSaoPaulo : Rule := { month := 1, day := 25 }

/-- `CarnavalSegunda`, `exchange_calendar_bvmf.py` lines 47-52. -/
def carnavalSegunda : Rule := { month := 1, day := 1, offsets := [.easter, .days (-48)] }

/-- `CarnavalTerca`, `exchange_calendar_bvmf.py` lines 54-59. -/
def carnavalTerca : Rule := { month := 1, day := 1, offsets := [.easter, .days (-47)] }

/-- `QuartaCinzas`, `exchange_calendar_bvmf.py` lines 61-66. -/
def quartaCinzas : Rule := { month := 1, day := 1, offsets := [.easter, .days (-46)] }

/-- `SextaPaixao`, `exchange_calendar_bvmf.py` line 68. -/
def sextaPaixao : Rule := TC.goodFriday

/-- `CorpusChristi`, `exchange_calendar_bvmf.py` line 70. -/
def corpusChristi : Rule := TC.corpusChristi

/-- `Tiradentes`, `exchange_calendar_bvmf.py` lines 72-76. -/
def tiradentes : Rule := { month := 4, day := 21 }

/-- `DiaTrabalho`, `exchange_calendar_bvmf.py` lines 78-82. -/
def diaTrabalho : Rule := { month := 5, day := 1 }

/-- `Constitucionalista_prepandemic`, `exchange_calendar_bvmf.py` lines 84-90. -/
def constitucionalistaPrepandemic : Rule :=
  { month := 7, day := 9, startDate := some (dayOf 1998 1 1), endDate := some (dayOf 2020 1 1) }

/-- `Constitucionalista_pospandemic`, `exchange_calendar_bvmf.py` lines 91-96. -/
def constitucionalistaPospandemic : Rule :=
  { month := 7, day := 9, startDate := some (dayOf 2021 1 1) }

/-- `Independencia`, `exchange_calendar_bvmf.py` lines 98-102. -/
def independencia : Rule := { month := 9, day := 7 }

/-- `Aparecida`, `exchange_calendar_bvmf.py` lines 104-108. -/
def aparecida : Rule := { month := 10, day := 12 }

/-- `Finados`, `exchange_calendar_bvmf.py` lines 110-114. -/
def finados : Rule := { month := 11, day := 2 }

/-- `ProclamacaoRepublica`, `exchange_calendar_bvmf.py` lines 116-120. -/
def proclamacaoRepublica : Rule := { month := 11, day := 15 }

/-- `ConscienciaNegra`, `exchange_calendar_bvmf.py` lines 122-127. -/
def conscienciaNegra : Rule := { month := 11, day := 20, startDate := some (dayOf 2004 1 1) }

/-- `VesperaNatal`, `exchange_calendar_bvmf.py` lines 129-133. -/
def vesperaNatal : Rule := { month := 12, day := 24 }

/-- `Natal`, `exchange_calendar_bvmf.py` lines 135-139. -/
def natal : Rule := { month := 12, day := 25 }

/-- `AnoNovo`, `exchange_calendar_bvmf.py` lines 141-146. -/
def anoNovo : Rule := { month := 12, day := 31, observance := some .previousFriday }

/-- `CopaDoMundo2014`, `exchange_calendar_bvmf.py` lines 148-153. -/
def copaDoMundo2014 : Rule := { year := some 2014, month := 6, day := 12 }

/-- `tz`, `exchange_calendar_bvmf.py` line 189. -/
def zone : Tz := Zones.americaSaoPaulo

/-- `open_times`, `exchange_calendar_bvmf.py` lines 191-193. -/
def openTimes : TimeTable := [(none, hm 10 1)]

/-- `close_times`, `exchange_calendar_bvmf.py` lines 195-198. -/
def closeTimes : TimeTable := [(none, hm 17 0), (some ((dayOf 2019 11 4) * DAY), hm 18 0)]

/-- `adhoc_holidays`, `exchange_calendar_bvmf.py` lines 200-202.  The list holds a `Holiday` object
instead of a date; numpy reads any object with the attributes `year`, `month` and `day` as that
date. -/
def adhoc : List Int :=
  [copaDoMundo2014].map fun r => dayOf (r.year.getD 0) r.month r.day

/-- `regular_holidays`, `exchange_calendar_bvmf.py` lines 204-225. -/
def regular : List Rule :=
  [TC.Bvmf.confUniversal, TC.Bvmf.aniversarioSaoPaulo, TC.Bvmf.carnavalSegunda,
   TC.Bvmf.carnavalTerca, TC.Bvmf.sextaPaixao, TC.Bvmf.corpusChristi, TC.Bvmf.tiradentes,
   TC.Bvmf.diaTrabalho, TC.Bvmf.constitucionalistaPrepandemic,
   TC.Bvmf.constitucionalistaPospandemic, TC.Bvmf.independencia, TC.Bvmf.aparecida, TC.Bvmf.finados,
   TC.Bvmf.proclamacaoRepublica, TC.Bvmf.conscienciaNegra, TC.Bvmf.vesperaNatal, TC.Bvmf.natal,
   TC.Bvmf.anoNovo]

/-- `BVMFExchangeCalendar`, `exchange_calendar_bvmf.py` lines 156-225. -/
def exchange : Exchange :=
  { regular := TC.Bvmf.regular
    adhoc := TC.Bvmf.adhoc
    openTimes := TC.Bvmf.openTimes
    closeTimes := TC.Bvmf.closeTimes }

end TC.Bvmf
