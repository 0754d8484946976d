import Verif.Lemmas.Weeks
import Verif.Lemmas.Feasts
import Verif.Props.Exchanges4

/-!
# The trading days of a month (C94) and of a week (C96), part 7 of 8

The kernel evaluates a check, which `Lemmas/Weeks` proves sound, on the exchange's rules.

Written by `tools/gen_months.py`.
-/

namespace TC.Props
open Spec

set_option maxRecDepth 100000

/-- The check for `XBKK`. -/
theorem months_weeks_xbkk : MonthlyRange (TradesOn Xbkk.exchange) 1990 2200 16 23 6 5 ∧
    WeeklyRange (TradesOn Xbkk.exchange) 1990 2200 2 5 [] :=
  months_weeks_of (k := 211) (rules_of_check xbkk_check) (by decide +kernel) (by decide) (by decide) (by decide)
    (by decide) (by decide) (by decide) (by decide +kernel)

/-- C94 for `XBKK`. -/
theorem c94_xbkk : MonthlyRange (TradesOn Xbkk.exchange) 1990 2200 16 23 6 5 := months_weeks_xbkk.1

/-- C96 for `XBKK`. -/
theorem c96_xbkk : WeeklyRange (TradesOn Xbkk.exchange) 1990 2200 2 5 [] := months_weeks_xbkk.2

/-- The check for `XDUB`. -/
theorem months_weeks_xdub : MonthlyRange (TradesOn Xdub.exchange) 1990 2200 18 23 5 5 ∧
    WeeklyRange (TradesOn Xdub.exchange) 1990 2200 2 5 [] :=
  months_weeks_of (k := 211) (rules_of_check xdub_check) (by decide +kernel) (by decide) (by decide) (by decide)
    (by decide) (by decide) (by decide) (by decide +kernel)

/-- C94 for `XDUB`. -/
theorem c94_xdub : MonthlyRange (TradesOn Xdub.exchange) 1990 2200 18 23 5 5 := months_weeks_xdub.1

/-- C96 for `XDUB`. -/
theorem c96_xdub : WeeklyRange (TradesOn Xdub.exchange) 1990 2200 2 5 [] := months_weeks_xdub.2

/-- The check for `XJSE`. -/
theorem months_weeks_xjse : MonthlyRange (TradesOn Xjse.exchange) 1990 2200 17 23 5 5 ∧
    WeeklyRange (TradesOn Xjse.exchange) 1990 2200 2 5 [] :=
  months_weeks_of (k := 211) (rules_of_check xjse_check) (by decide +kernel) (by decide) (by decide) (by decide)
    (by decide) (by decide) (by decide) (by decide +kernel)

/-- C94 for `XJSE`. -/
theorem c94_xjse : MonthlyRange (TradesOn Xjse.exchange) 1990 2200 17 23 5 5 := months_weeks_xjse.1

/-- C96 for `XJSE`. -/
theorem c96_xjse : WeeklyRange (TradesOn Xjse.exchange) 1990 2200 2 5 [] := months_weeks_xjse.2

/-- The check for `XMEX`. -/
theorem months_weeks_xmex : MonthlyRange (TradesOn Xmex.exchange) 1990 2200 18 23 5 5 ∧
    WeeklyRange (TradesOn Xmex.exchange) 1990 2200 2 5 [] :=
  months_weeks_of (k := 211) (rules_of_check xmex_check) (by decide +kernel) (by decide) (by decide) (by decide)
    (by decide) (by decide) (by decide) (by decide +kernel)

/-- C94 for `XMEX`. -/
theorem c94_xmex : MonthlyRange (TradesOn Xmex.exchange) 1990 2200 18 23 5 5 := months_weeks_xmex.1

/-- C96 for `XMEX`. -/
theorem c96_xmex : WeeklyRange (TradesOn Xmex.exchange) 1990 2200 2 5 [] := months_weeks_xmex.2

/-- The check for `XPRA`. -/
theorem months_weeks_xpra : MonthlyRange (TradesOn Xpra.exchange) 1990 2200 17 23 5 5 ∧
    WeeklyRange (TradesOn Xpra.exchange) 1990 2200 2 5 [] :=
  months_weeks_of (k := 211) (rules_of_check xpra_check) (by decide +kernel) (by decide) (by decide) (by decide)
    (by decide) (by decide) (by decide) (by decide +kernel)

/-- C94 for `XPRA`. -/
theorem c94_xpra : MonthlyRange (TradesOn Xpra.exchange) 1990 2200 17 23 5 5 := months_weeks_xpra.1

/-- C96 for `XPRA`. -/
theorem c96_xpra : WeeklyRange (TradesOn Xpra.exchange) 1990 2200 2 5 [] := months_weeks_xpra.2

/-- The check for `XTSE`. -/
theorem months_weeks_xtse : MonthlyRange (TradesOn Xtse.exchange) 1990 2200 17 23 4 4 ∧
    WeeklyRange (TradesOn Xtse.exchange) 1990 2200 3 5 [] :=
  months_weeks_of (k := 211) (rules_of_check xtse_check) (by decide +kernel) (by decide) (by decide) (by decide)
    (by decide) (by decide) (by decide) (by decide +kernel)

/-- C94 for `XTSE`. -/
theorem c94_xtse : MonthlyRange (TradesOn Xtse.exchange) 1990 2200 17 23 4 4 := months_weeks_xtse.1

/-- C96 for `XTSE`. -/
theorem c96_xtse : WeeklyRange (TradesOn Xtse.exchange) 1990 2200 3 5 [] := months_weeks_xtse.2

end TC.Props
