import Verif.Lemmas.EarlyYear
import Verif.Props.Exchanges1
import Verif.Props.Exchanges2
import Verif.Props.Exchanges3
import Verif.Props.Exchanges4

/-!
# Early closes and minutes of a year (C98), by exchange

The kernel evaluates a check, which `Lemmas/EarlyYear` proves sound, on the exchange's rules.

Written by `tools/gen_early.py`.
-/

namespace TC.Props
open Spec

set_option maxRecDepth 100000

/-- C98 for `IEPA`: early closes. -/
theorem c98_iepa : YearlyRange (HasEarlyClose Iepa.exchange) 1990 2200 5 6 :=
  early_range (k := 211) iepa_check (by decide +kernel) (by decide) (by decide) (by decide +kernel)

/-- C98 for `XBUE`: early closes. -/
theorem c98_xbue : YearlyRange (HasEarlyClose Xbue.exchange) 1990 2200 0 2 :=
  early_range (k := 211) xbue_check (by decide +kernel) (by decide) (by decide) (by decide +kernel)

/-- C98 for `XFRA`: early closes. -/
theorem c98_xfra : YearlyRange (HasEarlyClose Xfra.exchange) 1990 2200 0 1 :=
  early_range (k := 211) xfra_check (by decide +kernel) (by decide) (by decide) (by decide +kernel)

/-- C98 for `XLIS`: early closes. -/
theorem c98_xlis : YearlyRange (HasEarlyClose Xlis.exchange) 1990 2200 0 2 :=
  early_range (k := 211) xlis_check (by decide +kernel) (by decide) (by decide) (by decide +kernel)

/-- C98 for `XNZE`: early closes. -/
theorem c98_xnze : YearlyRange (HasEarlyClose Xnze.exchange) 1990 2200 0 2 :=
  early_range (k := 211) xnze_check (by decide +kernel) (by decide) (by decide) (by decide +kernel)

/-- C98 for `XSTO`: early closes. -/
theorem c98_xsto : YearlyRange (HasEarlyClose Xsto.exchange) 1990 2200 3 5 :=
  early_range (k := 211) xsto_check (by decide +kernel) (by decide) (by decide) (by decide +kernel)

/-- C98 for `XAMS`: minutes. -/
theorem c98_xams_minutes : MinutesRange (TradesOn Xams.exchange) (HasEarlyClose Xams.exchange) 510 305 1990 2200 127805 131680 :=
  minutes_range (k := 211) xams_check (by decide +kernel) (by decide +kernel) (by decide) (by decide) (by decide +kernel)

/-- C98 for `XCBF`: minutes. -/
theorem c98_xcbf_minutes : MinutesRange (TradesOn Xcbf.exchange) (HasEarlyClose Xcbf.exchange) 405 225 1990 2200 101070 103275 :=
  minutes_range (k := 211) xcbf_check (by decide +kernel) (by decide +kernel) (by decide) (by decide) (by decide +kernel)

/-- C98 for `XIST`: minutes. -/
theorem c98_xist_minutes : MinutesRange (TradesOn Xist.exchange) (HasEarlyClose Xist.exchange) 480 150 1990 2200 117570 123360 :=
  minutes_range (k := 211) xist_check (by decide +kernel) (by decide +kernel) (by decide) (by decide) (by decide +kernel)

/-- C98 for `XMAD`: minutes. -/
theorem c98_xmad_minutes : MinutesRange (TradesOn Xmad.exchange) (HasEarlyClose Xmad.exchange) 510 300 1990 2200 126990 131670 :=
  minutes_range (k := 211) xmad_check (by decide +kernel) (by decide +kernel) (by decide) (by decide) (by decide +kernel)

/-- C98 for `XSTO`: minutes. -/
theorem c98_xsto_minutes : MinutesRange (TradesOn Xsto.exchange) (HasEarlyClose Xsto.exchange) 510 240 1990 2200 125910 128190 :=
  minutes_range (k := 211) xsto_check (by decide +kernel) (by decide +kernel) (by decide) (by decide) (by decide +kernel)

end TC.Props
