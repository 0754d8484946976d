import Verif.Lemmas.EarlyYear
import Verif.Props.Exchanges1
import Verif.Props.Exchanges2
import Verif.Props.Exchanges3
import Verif.Props.Exchanges4

/-!
# Early closes and minutes of a year (C98), by exchange

The kernel evaluates a check, which `Lemmas/EarlyYear` proves sound, on the exchange's rules.

Written by `tools/gen_early.py`.
-/

namespace TC.Props
open Spec

set_option maxRecDepth 100000

/-- C98 for `XAMS`: early closes. -/
theorem c98_xams : YearlyRange (HasEarlyClose Xams.exchange) 1990 2200 0 2 :=
  early_range (k := 211) xams_check (by decide +kernel) (by decide) (by decide) (by decide +kernel)

/-- C98 for `XCBF`: early closes. -/
theorem c98_xcbf : YearlyRange (HasEarlyClose Xcbf.exchange) 1990 2200 0 1 :=
  early_range (k := 211) xcbf_check (by decide +kernel) (by decide) (by decide) (by decide +kernel)

/-- C98 for `XHKG`: early closes. -/
theorem c98_xhkg : YearlyRange (HasEarlyClose Xhkg.exchange) 1990 2049 0 3 :=
  early_range (k := 60) xhkg_check (by decide +kernel) (by decide) (by decide) (by decide +kernel)

/-- C98 for `XLON`: early closes. -/
theorem c98_xlon : YearlyRange (HasEarlyClose Xlon.exchange) 1990 2200 1 2 :=
  early_range (k := 211) xlon_check (by decide +kernel) (by decide) (by decide) (by decide +kernel)

/-- C98 for `XOSL`: early closes. -/
theorem c98_xosl : YearlyRange (HasEarlyClose Xosl.exchange) 1990 2200 0 1 :=
  early_range (k := 211) xosl_check (by decide +kernel) (by decide) (by decide) (by decide +kernel)

/-- C98 for `XTSE`: early closes. -/
theorem c98_xtse : YearlyRange (HasEarlyClose Xtse.exchange) 1990 2200 0 1 :=
  early_range (k := 211) xtse_check (by decide +kernel) (by decide) (by decide) (by decide +kernel)

/-- C98 for `XASX`: minutes. -/
theorem c98_xasx_minutes : MinutesRange (TradesOn Xasx.exchange) (HasEarlyClose Xasx.exchange) 360 250 1990 2200 90500 91800 :=
  minutes_range (k := 211) xasx_check (by decide +kernel) (by decide +kernel) (by decide) (by decide) (by decide +kernel)

/-- C98 for `XDUB`: minutes. -/
theorem c98_xdub_minutes : MinutesRange (TradesOn Xdub.exchange) (HasEarlyClose Xdub.exchange) 508 268 1990 2200 127804 129568 :=
  minutes_range (k := 211) xdub_check (by decide +kernel) (by decide +kernel) (by decide) (by decide) (by decide +kernel)

/-- C98 for `XKLS`: minutes. -/
theorem c98_xkls_minutes : MinutesRange (TradesOn Xkls.exchange) (HasEarlyClose Xkls.exchange) 480 210 1990 2200 116100 123840 :=
  minutes_range (k := 211) xkls_check (by decide +kernel) (by decide +kernel) (by decide) (by decide) (by decide +kernel)

/-- C98 for `XNZE`: minutes. -/
theorem c98_xnze_minutes : MinutesRange (TradesOn Xnze.exchange) (HasEarlyClose Xnze.exchange) 405 165 1990 2200 100770 102465 :=
  minutes_range (k := 211) xnze_check (by decide +kernel) (by decide +kernel) (by decide) (by decide) (by decide +kernel)

/-- C98 for `XTSE`: minutes. -/
theorem c98_xtse_minutes : MinutesRange (TradesOn Xtse.exchange) (HasEarlyClose Xtse.exchange) 390 210 1990 2200 97500 98670 :=
  minutes_range (k := 211) xtse_check (by decide +kernel) (by decide +kernel) (by decide) (by decide) (by decide +kernel)

end TC.Props
