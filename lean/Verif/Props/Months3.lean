import Verif.Lemmas.Weeks
import Verif.Lemmas.Feasts
import Verif.Props.Exchanges3
import Verif.Props.Exchanges4

/-!
# The trading days of a month (C94) and of a week (C96), part 3 of 8

The kernel evaluates a check, which `Lemmas/Weeks` proves sound, on the exchange's rules.

Written by `tools/gen_months.py`.
-/

namespace TC.Props
open Spec

set_option maxRecDepth 100000

/-- The check for `CMES`. -/
theorem months_weeks_cmes : MonthlyRange (TradesOn Cmes.exchange) 1990 2200 19 23 4 4 ∧
    WeeklyRange (TradesOn Cmes.exchange) 1990 2200 3 5 [] :=
  months_weeks_of (k := 211) (rules_of_check cmes_check) (by decide +kernel) (by decide) (by decide) (by decide)
    (by decide) (by decide) (by decide) (by decide +kernel)

/-- C94 for `CMES`. -/
theorem c94_cmes : MonthlyRange (TradesOn Cmes.exchange) 1990 2200 19 23 4 4 := months_weeks_cmes.1

/-- C96 for `CMES`. -/
theorem c96_cmes : WeeklyRange (TradesOn Cmes.exchange) 1990 2200 3 5 [] := months_weeks_cmes.2

/-- The check for `XBUD`. -/
theorem months_weeks_xbud : MonthlyRange (TradesOn Xbud.exchange) 1990 2200 17 23 5 5 ∧
    WeeklyRange (TradesOn Xbud.exchange) 1990 2200 1 5 [] :=
  months_weeks_of (k := 211) (rules_of_check xbud_check) (by decide +kernel) (by decide) (by decide) (by decide)
    (by decide) (by decide) (by decide) (by decide +kernel)

/-- C94 for `XBUD`. -/
theorem c94_xbud : MonthlyRange (TradesOn Xbud.exchange) 1990 2200 17 23 5 5 := months_weeks_xbud.1

/-- C96 for `XBUD`. -/
theorem c96_xbud : WeeklyRange (TradesOn Xbud.exchange) 1990 2200 1 5 [] := months_weeks_xbud.2

/-- The check for `XHKG`. -/
theorem months_weeks_xhkg : MonthlyRange (TradesOn Xhkg.exchange) 1990 2049 16 23 6 5 ∧
    WeeklyRange (TradesOn Xhkg.exchange) 1990 2049 2 5 [] :=
  months_weeks_of (k := 60) (rules_of_check xhkg_check) (by decide +kernel) (by decide) (by decide) (by decide)
    (by decide) (by decide) (by decide) (by decide +kernel)

/-- C94 for `XHKG`. -/
theorem c94_xhkg : MonthlyRange (TradesOn Xhkg.exchange) 1990 2049 16 23 6 5 := months_weeks_xhkg.1

/-- C96 for `XHKG`. -/
theorem c96_xhkg : WeeklyRange (TradesOn Xhkg.exchange) 1990 2049 2 5 [] := months_weeks_xhkg.2

/-- The check for `XLIM`. -/
theorem months_weeks_xlim : MonthlyRange (TradesOn Xlim.exchange) 1990 2200 18 23 5 5 ∧
    WeeklyRange (TradesOn Xlim.exchange) 1990 2200 2 5 [] :=
  months_weeks_of (k := 211) (rules_of_check xlim_check) (by decide +kernel) (by decide) (by decide) (by decide)
    (by decide) (by decide) (by decide) (by decide +kernel)

/-- C94 for `XLIM`. -/
theorem c94_xlim : MonthlyRange (TradesOn Xlim.exchange) 1990 2200 18 23 5 5 := months_weeks_xlim.1

/-- C96 for `XLIM`. -/
theorem c96_xlim : WeeklyRange (TradesOn Xlim.exchange) 1990 2200 2 5 [] := months_weeks_xlim.2

/-- The check for `XNZE`. -/
theorem months_weeks_xnze : MonthlyRange (TradesOn Xnze.exchange) 1990 2200 17 23 6 5 ∧
    WeeklyRange (TradesOn Xnze.exchange) 1990 2200 2 5 [] :=
  months_weeks_of (k := 211) (rules_of_check xnze_check) (by decide +kernel) (by decide) (by decide) (by decide)
    (by decide) (by decide) (by decide) (by decide +kernel)

/-- C94 for `XNZE`. -/
theorem c94_xnze : MonthlyRange (TradesOn Xnze.exchange) 1990 2200 17 23 6 5 := months_weeks_xnze.1

/-- C96 for `XNZE`. -/
theorem c96_xnze : WeeklyRange (TradesOn Xnze.exchange) 1990 2200 2 5 [] := months_weeks_xnze.2

/-- The check for `XSTO`. -/
theorem months_weeks_xsto : MonthlyRange (TradesOn Xsto.exchange) 1990 2200 17 23 5 5 ∧
    WeeklyRange (TradesOn Xsto.exchange) 1990 2200 2 5 [] :=
  months_weeks_of (k := 211) (rules_of_check xsto_check) (by decide +kernel) (by decide) (by decide) (by decide)
    (by decide) (by decide) (by decide) (by decide +kernel)

/-- C94 for `XSTO`. -/
theorem c94_xsto : MonthlyRange (TradesOn Xsto.exchange) 1990 2200 17 23 5 5 := months_weeks_xsto.1

/-- C96 for `XSTO`. -/
theorem c96_xsto : WeeklyRange (TradesOn Xsto.exchange) 1990 2200 2 5 [] := months_weeks_xsto.2

end TC.Props
