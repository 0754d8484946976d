import Verif.Lemmas.EarlyYear
import Verif.Props.Exchanges1
import Verif.Props.Exchanges2
import Verif.Props.Exchanges3
import Verif.Props.Exchanges4

/-!
# Early closes and minutes of a year (C98), by exchange

The kernel evaluates a check, which `Lemmas/EarlyYear` proves sound, on the exchange's rules.

Written by `tools/gen_early.py`.
-/

namespace TC.Props
open Spec

set_option maxRecDepth 100000

/-- C98 for `XASX`: early closes. -/
theorem c98_xasx : YearlyRange (HasEarlyClose Xasx.exchange) 1990 2200 0 2 :=
  early_range (k := 211) xasx_check (by decide +kernel) (by decide) (by decide) (by decide +kernel)

/-- C98 for `XDUB`: early closes. -/
theorem c98_xdub : YearlyRange (HasEarlyClose Xdub.exchange) 1990 2200 0 3 :=
  early_range (k := 211) xdub_check (by decide +kernel) (by decide) (by decide) (by decide +kernel)

/-- C98 for `XIST`: early closes. -/
theorem c98_xist : YearlyRange (HasEarlyClose Xist.exchange) 1990 2200 0 3 :=
  early_range (k := 211) xist_check (by decide +kernel) (by decide) (by decide) (by decide +kernel)

/-- C98 for `XMAD`: early closes. -/
theorem c98_xmad : YearlyRange (HasEarlyClose Xmad.exchange) 1990 2200 0 2 :=
  early_range (k := 211) xmad_check (by decide +kernel) (by decide) (by decide) (by decide +kernel)

/-- C98 for `XPAR`: early closes. -/
theorem c98_xpar : YearlyRange (HasEarlyClose Xpar.exchange) 1990 2200 0 2 :=
  early_range (k := 211) xpar_check (by decide +kernel) (by decide) (by decide) (by decide +kernel)

/-- C98 for `CMES`: minutes. -/
theorem c98_cmes_minutes : MinutesRange (TradesOn Cmes.exchange) (HasEarlyClose Cmes.exchange) 1440 1140 1990 2200 367680 371160 :=
  minutes_range (k := 211) cmes_check (by decide +kernel) (by decide +kernel) (by decide) (by decide) (by decide +kernel)

/-- C98 for `XBRU`: minutes. -/
theorem c98_xbru_minutes : MinutesRange (TradesOn Xbru.exchange) (HasEarlyClose Xbru.exchange) 510 305 1990 2200 127805 131680 :=
  minutes_range (k := 211) xbru_check (by decide +kernel) (by decide +kernel) (by decide) (by decide) (by decide +kernel)

/-- C98 for `XETR`: minutes. -/
theorem c98_xetr_minutes : MinutesRange (TradesOn Xetr.exchange) (HasEarlyClose Xetr.exchange) 510 300 1990 2200 127800 131070 :=
  minutes_range (k := 211) xetr_check (by decide +kernel) (by decide +kernel) (by decide) (by decide) (by decide +kernel)

/-- C98 for `XLIS`: minutes. -/
theorem c98_xlis_minutes : MinutesRange (TradesOn Xlis.exchange) (HasEarlyClose Xlis.exchange) 510 305 1990 2200 125255 131680 :=
  minutes_range (k := 211) xlis_check (by decide +kernel) (by decide +kernel) (by decide) (by decide) (by decide +kernel)

/-- C98 for `XOSL`: minutes. -/
theorem c98_xosl_minutes : MinutesRange (TradesOn Xosl.exchange) (HasEarlyClose Xosl.exchange) 440 240 1990 2200 109360 111560 :=
  minutes_range (k := 211) xosl_check (by decide +kernel) (by decide +kernel) (by decide) (by decide) (by decide +kernel)

end TC.Props
