import Verif.Lemmas.EarlyYear
import Verif.Props.Exchanges1
import Verif.Props.Exchanges2
import Verif.Props.Exchanges3
import Verif.Props.Exchanges4

/-!
# Early closes and minutes of a year (C98), by exchange

The kernel evaluates a check, which `Lemmas/EarlyYear` proves sound, on the exchange's rules.

Written by `tools/gen_early.py`.
-/

namespace TC.Props
open Spec

set_option maxRecDepth 100000

/-- C98 for `CMES`: early closes. -/
theorem c98_cmes : YearlyRange (HasEarlyClose Cmes.exchange) 1990 2200 6 8 :=
  early_range (k := 211) cmes_check (by decide +kernel) (by decide) (by decide) (by decide +kernel)

/-- C98 for `XBRU`: early closes. -/
theorem c98_xbru : YearlyRange (HasEarlyClose Xbru.exchange) 1990 2200 0 2 :=
  early_range (k := 211) xbru_check (by decide +kernel) (by decide) (by decide) (by decide +kernel)

/-- C98 for `XETR`: early closes. -/
theorem c98_xetr : YearlyRange (HasEarlyClose Xetr.exchange) 1990 2200 0 1 :=
  early_range (k := 211) xetr_check (by decide +kernel) (by decide) (by decide) (by decide +kernel)

/-- C98 for `XKLS`: early closes. -/
theorem c98_xkls : YearlyRange (HasEarlyClose Xkls.exchange) 1990 2200 0 3 :=
  early_range (k := 211) xkls_check (by decide +kernel) (by decide) (by decide) (by decide +kernel)

/-- C98 for `XNYS`: early closes. -/
theorem c98_xnys : YearlyRange (HasEarlyClose Xnys.exchange) 1990 2200 1 4 :=
  early_range (k := 211) xnys_check (by decide +kernel) (by decide) (by decide) (by decide +kernel)

/-- C98 for `XSGO`: early closes. -/
theorem c98_xsgo : YearlyRange (HasEarlyClose Xsgo.exchange) 1990 2200 1 4 :=
  early_range (k := 211) xsgo_check (by decide +kernel) (by decide) (by decide) (by decide +kernel)

/-- C98 for `IEPA`: minutes. -/
theorem c98_iepa_minutes : MinutesRange (TradesOn Iepa.exchange) (HasEarlyClose Iepa.exchange) 1320 1020 1990 2200 337440 340380 :=
  minutes_range (k := 211) iepa_check (by decide +kernel) (by decide +kernel) (by decide) (by decide) (by decide +kernel)

/-- C98 for `XBUE`: minutes. -/
theorem c98_xbue_minutes : MinutesRange (TradesOn Xbue.exchange) (HasEarlyClose Xbue.exchange) 360 120 1990 2200 84840 91080 :=
  minutes_range (k := 211) xbue_check (by decide +kernel) (by decide +kernel) (by decide) (by decide) (by decide +kernel)

/-- C98 for `XFRA`: minutes. -/
theorem c98_xfra_minutes : MinutesRange (TradesOn Xfra.exchange) (HasEarlyClose Xfra.exchange) 510 210 1990 2200 127710 131070 :=
  minutes_range (k := 211) xfra_check (by decide +kernel) (by decide +kernel) (by decide) (by decide) (by decide +kernel)

/-- C98 for `XLON`: minutes. -/
theorem c98_xlon_minutes : MinutesRange (TradesOn Xlon.exchange) (HasEarlyClose Xlon.exchange) 510 270 1990 2200 127530 129060 :=
  minutes_range (k := 211) xlon_check (by decide +kernel) (by decide +kernel) (by decide) (by decide) (by decide +kernel)

/-- C98 for `XPAR`: minutes. -/
theorem c98_xpar_minutes : MinutesRange (TradesOn Xpar.exchange) (HasEarlyClose Xpar.exchange) 510 305 1990 2200 128315 131680 :=
  minutes_range (k := 211) xpar_check (by decide +kernel) (by decide +kernel) (by decide) (by decide) (by decide +kernel)

end TC.Props
